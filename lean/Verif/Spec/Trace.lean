import Verif.Model.Trace

/-!
# Specification: `vsnprintf` and message pipes
-/
namespace Winpty.Spec.Trace

open Winpty.Trace (Round)

/-- What a C library's `vsnprintf` may do with a text and a buffer of this size: what C99 says, or what
Microsoft's `_vsnprintf` or `_vsnprintf_s(…, _TRUNCATE)` do. -/
inductive Prints (size : Nat) (text : List Nat) : List Nat × Int → Prop
  | fits : text.length < size → Prints size text (text ++ [0], text.length)
  | c99 : size ≤ text.length → Prints size text (text.take (size - 1) ++ [0], text.length)
  | microsoft : size < text.length → Prints size text (text.take size, -1)
  | microsoftExact : text.length = size → Prints size text (text, size)
  | truncate : size ≤ text.length → Prints size text (text.take (size - 1) ++ [0], -1)

/-- When a client connects: while the server waits for one in `ConnectNamedPipe`, or before, after the
pipe was created. -/
inductive When where
  | waiting | early

/-- What the server finds when a client sends this message, and the server reads with a buffer of this
size: the message if it is not longer; if it is, `ReadFile` fails (`ERROR_MORE_DATA`).  If the client was
early, `ConnectNamedPipe` fails with `ERROR_PIPE_CONNECTED` (535). -/
inductive Client (size : Nat) : When → List Nat → Round → Prop
  | whole {m : List Nat} : m.length ≤ size → Client size .waiting m (.read m)
  | long {m : List Nat} : size < m.length → Client size .waiting m .readFailed
  | early {m : List Nat} : Client size .early m (.connectFailed 535)

end Winpty.Spec.Trace
