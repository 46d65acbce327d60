import Verif.Model.TtyMode
import Verif.Model.Startup
/-!
# Model of the adapter's key viewer

`src/unix-adapter/main.cc`: `debugShowKey`, with `src/shared/UnixCtrlChars.h`.  Bytes are natural numbers
below 256.  The messages of failing terminal calls, which go to the standard error, are left out.
-/
namespace Winpty.ShowKey

open Winpty.TtyMode
open Winpty.Startup (lit)

/-- `ctrlKeys`, src/shared/UnixCtrlChars.h:25-34. -/
def ctrlKeys : List Nat := lit "@ABCDEFGHIJKLMNOPQRSTUVWXYZ[\\]^_"

/-- `decodeUnixCtrlChar`, src/shared/UnixCtrlChars.h:24-43. -/
def decodeUnixCtrlChar (ch : Nat) : Nat :=
  if ch < 32 then ctrlKeys.getD ch 0
  else if ch = 127 then 63
  else 0

/-- The body of the first loop, src/unix-adapter/main.cc:165-173. -/
def echo (ch : Nat) : List Nat :=
  if decodeUnixCtrlChar ch = 0 then [ch] else [94, decodeUnixCtrlChar ch]

/-- A digit of `%d`, `%o` or `%x`, src/unix-adapter/main.cc:176. -/
def digit (d : Nat) : Nat := if d < 10 then 48 + d else 97 + (d - 10)

/-- The digits of a number, src/unix-adapter/main.cc:176: at most `n`, at least one. -/
def digits (base : Nat) : Nat → Nat → List Nat
  | 0, _ => []
  | n + 1, v => if v < base then [digit v] else digits base n (v / base) ++ [digit (v % base)]

/-- Padding on the left to a width, src/unix-adapter/main.cc:176. -/
def pad (fill width : Nat) (s : List Nat) : List Nat := List.replicate (width - s.length) fill ++ s

/-- `printf("\t%3d %04o 0x%02x\n")`, src/unix-adapter/main.cc:174-178. -/
def line (ch : Nat) : List Nat :=
  [9] ++ pad 32 3 (digits 10 3 ch) ++ [32] ++ pad 48 4 (digits 8 3 ch) ++ lit " 0x" ++
    pad 48 2 (digits 16 2 ch) ++ [10]

/-- One turn of the loop, src/unix-adapter/main.cc:165-178. -/
def showRead (buf : List Nat) : List Nat := buf.flatMap echo ++ buf.flatMap line

/-- The loop, src/unix-adapter/main.cc:160-183: what it prints, for the given results of `read`; the list
ends where `read` reports the end of the input or an error. -/
def loop : List (List Nat) → List Nat
  | [] => []
  | buf :: more =>
    if buf = [] then []
    else if buf.head? = some 4 then showRead buf
    else showRead buf ++ loop more

/-- The first line, src/unix-adapter/main.cc:156. -/
def banner : List Nat := lit "\nPress any keys -- Ctrl-D exits\n\n"

/-- What is printed, the exit code, and the terminals at the end. -/
structure Result where
  stdout : List Nat
  code : Nat
  world : World

/-- The end of `debugShowKey`, src/unix-adapter/main.cc:184 and 527. -/
def finish (env : Env) (saved : Saved) (out : List Nat) (w : World) : Result :=
  match restoreTerminalMode env saved w with
  | .exit w' => ⟨out, 1, w'⟩
  | .ok _ w' => ⟨out, 0, w'⟩

/-- `debugShowKey` and the exit after it, src/unix-adapter/main.cc:154-185 and 526-527; `reads` are the
results of `read`, and `during` is what other programs do to the terminals meanwhile. -/
def debugShowKey (env : Env) (allowNonTtys : Bool) (garbage : Nat → Termios) (w : World)
    (reads : List (List Nat)) (during : World → World) : Result :=
  match setRawTerminalMode env allowNonTtys false false garbage w with
  | .exit w' => ⟨banner, 1, w'⟩
  | .ok saved w1 => finish env saved (banner ++ loop reads) (during w1)

end Winpty.ShowKey
