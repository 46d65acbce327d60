import Verif.Model.Buffer

/-!
# Model of control-pipe framing: `Agent::pollControlPipe` and the client's `readPacket`
-/
namespace Winpty.Framing
open Winpty.Buffer (leNat)

/-- The agent side: the state `σ` touched by the packet handlers, the bytes buffered by the control
pipe (`m_inQueue`) and its `m_readBufferSize` (src/agent/NamedPipe.h:117-118). -/
structure Agent (σ : Type) where
  handler : σ
  inQueue : List Nat
  readBufferSize : Nat

/-- Either the agent is still running, or an `ASSERT` aborted it (src/shared/WinptyAssert.h:35-40). -/
inductive Run (σ : Type) where
  | running (a : Agent σ)
  | aborted (handler : σ)

/-- The loop of `Agent::pollControlPipe`, src/agent/Agent.cc:293-318.  `peek`/`read` on the pipe
(src/agent/NamedPipe.cc:324-347) are `take`/`drop` on the queue.  `h` is `handlePacket` applied to
the whole packet (its reader starts at offset 8, after the discarded size); `none` is a
`DecodeError` or a failed `ASSERT` inside it.  Simplification: allocation of the packet buffer
succeeds (its size is at most the number of bytes already held). -/
def pollLoop {σ : Type} (sizeMax : Nat) (h : σ → List Nat → Option σ) (s : σ) (q : List Nat)
    (rbs : Nat) : Run σ :=
  if _h8 : q.length < 8 then .running ⟨s, q, rbs⟩
  else if _hn : ¬ (8 ≤ leNat (q.take 8) ∧ leNat (q.take 8) ≤ sizeMax) then .aborted s
  else if q.length < leNat (q.take 8) then
    .running ⟨s, q, if rbs < leNat (q.take 8) then leNat (q.take 8) else rbs⟩
  else
    match h s (q.take (leNat (q.take 8))) with
    | none => .aborted s
    | some s' => pollLoop sizeMax h s' (q.drop (leNat (q.take 8))) rbs
termination_by q.length
decreasing_by rw [List.length_drop]; omega

/-- One arrival on an open control pipe: `InputWorker::completeIo` appends the bytes
(src/agent/NamedPipe.cc:162-165), then `onPipeIo` calls `pollControlPipe`
(src/agent/Agent.cc:274-283). -/
def arrive {σ : Type} (sizeMax : Nat) (h : σ → List Nat → Option σ) (r : Run σ) (chunk : List Nat) :
    Run σ :=
  match r with
  | .running a => pollLoop sizeMax h a.handler (a.inQueue ++ chunk) a.readBufferSize
  | .aborted s => .aborted s

/-- Any number of arrivals.
Repeated src/agent/Agent.cc:285-319. -/
def arrivals {σ : Type} (sizeMax : Nat) (h : σ → List Nat → Option σ) (r : Run σ)
    (chunks : List (List Nat)) : Run σ := chunks.foldl (arrive sizeMax h) r

/-- The agent before anything has arrived; `m_readBufferSize` is 64 KiB
(src/agent/NamedPipe.h:117). -/
def start {σ : Type} (s : σ) : Run σ := .running ⟨s, [], 64 * 1024⟩

/-- `InputWorker::shouldIssueIo`, src/agent/NamedPipe.cc:167-179, on a connected pipe: the size of
the read to issue (always `kIoSize` = 64 KiB), or none.  `Verif/Model/NamedPipe.lean` models the
whole pipe. -/
def issueRead (inQueueLen readBufferSize : Nat) : Option Nat :=
  if inQueueLen < readBufferSize then some (64 * 1024) else none

/-! ## The client: blocking reads -/

/-- What the pipe can deliver to the client: each `ReadFile` returns a prefix of the bytes still to
come; the list gives, for successive calls, how many bytes the system is prepared to return (at
least one is returned when the entry is 0: `ReadFile` on a byte pipe blocks until data is there).
When the bytes run out `ReadFile` fails (broken pipe or time-out), outcome `ioError`.
Stands for the `ReadFile` of src/libwinpty/winpty.cc:329-341. -/
structure Pipe where
  bytes : List Nat
  grants : List Nat

/-- Outcome of a client-side read.
The exits of src/libwinpty/winpty.cc:329-368. -/
inductive CRes (α : Type) where
  | ok (a : α) (p : Pipe)
  | ioError
  | badSize

/-- `readData`, src/libwinpty/winpty.cc:329-341: one `ReadFile` of at most `amount` bytes. -/
def readData (p : Pipe) (amount : Nat) : CRes (List Nat) :=
  match p.bytes with
  | [] => .ioError
  | bs =>
    .ok (bs.take (min amount (max 1 (p.grants.headD 0))))
      ⟨bs.drop (min amount (max 1 (p.grants.headD 0))), p.grants.tail⟩

/-- `readAll`, src/libwinpty/winpty.cc:343-350.  `fuel` bounds the number of iterations; each one
returns at least one byte, so `amount` iterations suffice (this is proved, not assumed:
`readAll_eq`). -/
def readAllFuel : Nat → Pipe → Nat → CRes (List Nat)
  | 0, p, amount => if amount = 0 then .ok [] p else .ioError
  | fuel + 1, p, amount =>
    if amount > 0 then
      match readData p amount with
      | .ok chunk p' =>
        match readAllFuel fuel p' (amount - chunk.length) with
        | .ok rest p'' => .ok (chunk ++ rest) p''
        | .ioError => .ioError
        | .badSize => .badSize
      | .ioError => .ioError
      | .badSize => .badSize
    else .ok [] p

/-- `readAll` with enough iterations.
src/libwinpty/winpty.cc:343-350. -/
def readAll (p : Pipe) (amount : Nat) : CRes (List Nat) := readAllFuel amount p amount

/-- `readPacket`, src/libwinpty/winpty.cc:359-368 (and `readUInt64`, 352-356): the payload of the
next packet. -/
def readPacket (sizeMax : Nat) (p : Pipe) : CRes (List Nat) :=
  match readAll p 8 with
  | .ok sz p' =>
    if leNat sz < 8 ∨ leNat sz > sizeMax then .badSize
    else readAll p' (leNat sz - 8)
  | .ioError => .ioError
  | .badSize => .badSize

end Winpty.Framing
