/-!
# Model of the adapter's handling of terminal modes

`src/unix-adapter/main.cc`: `setRawTerminalMode` and `restoreTerminalMode`.  A file descriptor may be
connected to a terminal, and several to the same one.  Which terminal a descriptor is connected to
does not change while the adapter runs.  Any call of `tcgetattr` or `tcsetattr` may fail; a failing
`tcsetattr` changes nothing.  Messages and the unused field `count` are left out.
-/
namespace Winpty.TtyMode

/-- The part of `termios` that src/unix-adapter/main.cc:108-113, 129-131 changes; `other` is everything
else (the other flags, the control characters other than `VMIN` and `VTIME`, the speeds).  `CSIZE` is the
number of bits of a character. -/
structure Termios where
  echo : Bool
  icanon : Bool
  iexten : Bool
  isig : Bool
  brkint : Bool
  icrnl : Bool
  inpck : Bool
  istrip : Bool
  ixon : Bool
  csize : Nat
  parenb : Bool
  opost : Bool
  vmin : Nat
  vtime : Nat
  other : Nat
deriving DecidableEq, Repr

/-- What the operating system does, src/unix-adapter/main.cc:87, 95, 104, 114, 125, 132, 147: the
terminal a descriptor is connected to (`isatty`), and which calls of `tcgetattr` and `tcsetattr` fail,
by their number. -/
structure Env where
  tty : Nat → Option Nat
  fails : Nat → Bool

/-- The terminals: the mode of each (what src/unix-adapter/main.cc:95 reads), and how many calls were
made so far. -/
structure World where
  mode : Nat → Termios
  calls : Nat

/-- `SavedTermiosMode`, src/unix-adapter/main.cc:66-70. -/
structure Saved where
  valid : Nat → Bool
  mode : Nat → Termios

/-- The outcome: `exit(1)`, src/unix-adapter/main.cc:91, 97, 106, 116, 127, 134, 149, or a result. -/
inductive Res (α : Type) where
  | exit (w : World)
  | ok (a : α) (w : World)

/-- Replace one entry of an array, src/unix-adapter/main.cc:88, 95. -/
def put {α : Type} (f : Nat → α) (i : Nat) (x : α) : Nat → α := fun j => if j = i then x else f j

/-- `tcgetattr`, src/unix-adapter/main.cc:95, 104, 125. -/
def tcgetattr (env : Env) (w : World) (i : Nat) : Res Termios :=
  match env.tty i with
  | none => .exit { w with calls := w.calls + 1 }
  | some t =>
    if env.fails w.calls then .exit { w with calls := w.calls + 1 }
    else .ok (w.mode t) { w with calls := w.calls + 1 }

/-- `tcsetattr`, src/unix-adapter/main.cc:114, 132, 147. -/
def tcsetattr (env : Env) (w : World) (i : Nat) (m : Termios) : Res Unit :=
  match env.tty i with
  | none => .exit { w with calls := w.calls + 1 }
  | some t =>
    if env.fails w.calls then .exit { w with calls := w.calls + 1 }
    else .ok () { w with mode := put w.mode t m, calls := w.calls + 1 }

/-- The loop body of src/unix-adapter/main.cc:83-100. -/
def save (env : Env) (allowNonTtys : Bool) (ret : Saved) (i : Nat) (w : World) : Res Saved :=
  if !ret.valid i then .ok ret w
  else if (env.tty i).isNone then
    if !allowNonTtys then .exit w else .ok { ret with valid := put ret.valid i false } w
  else
    match tcgetattr env w i with
    | .exit w' => .exit w'
    | .ok m w' => .ok { valid := put ret.valid i true, mode := put ret.mode i m } w'

/-- The loop of src/unix-adapter/main.cc:83-100, from `i` on, for the descriptors in the list. -/
def saveAll (env : Env) (allowNonTtys : Bool) : List Nat → Saved → World → Res Saved
  | [], ret, w => .ok ret w
  | i :: is, ret, w =>
    match save env allowNonTtys ret i w with
    | .exit w' => .exit w'
    | .ok ret' w' => saveAll env allowNonTtys is ret' w'

/-- The new mode of the input terminal, src/unix-adapter/main.cc:108-113. -/
def rawInput (m : Termios) : Termios :=
  { m with
    echo := false, icanon := false, iexten := false, isig := false
    brkint := false, icrnl := false, inpck := false, istrip := false, ixon := false
    csize := 8, parenb := false
    vmin := 1, vtime := 0 }

/-- The new mode of an output terminal, src/unix-adapter/main.cc:129-131. -/
def rawOutput (m : Termios) : Termios :=
  { m with csize := 8, parenb := false, opost := false }

/-- Change the mode of a terminal, src/unix-adapter/main.cc:103-117 and 124-135. -/
def change (env : Env) (f : Termios → Termios) (i : Nat) (w : World) : Res Unit :=
  match tcgetattr env w i with
  | .exit w' => .exit w'
  | .ok m w' => tcsetattr env w' i (f m)

/-- The loop of src/unix-adapter/main.cc:120-136. -/
def changeOutputs (env : Env) (ret : Saved) : List Nat → World → Res Unit
  | [], w => .ok () w
  | i :: is, w =>
    if !ret.valid i then changeOutputs env ret is w
    else
      match change env rawOutput i w with
      | .exit w' => .exit w'
      | .ok _ w' => changeOutputs env ret is w'

/-- `setRawTerminalMode`, src/unix-adapter/main.cc:73-139.  `garbage` is what the uninitialized
`ret.mode` contains. -/
def setRawTerminalMode (env : Env) (allowNonTtys setStdout setStderr : Bool)
    (garbage : Nat → Termios) (w : World) : Res Saved :=
  match saveAll env allowNonTtys [0, 1, 2]
      ⟨fun i => if i = 0 then true else if i = 1 then setStdout else setStderr, garbage⟩ w with
  | .exit w' => .exit w'
  | .ok ret w1 =>
    match (if ret.valid 0 then change env rawInput 0 w1 else .ok () w1) with
    | .exit w' => .exit w'
    | .ok _ w2 =>
      match changeOutputs env ret [1, 2] w2 with
      | .exit w' => .exit w'
      | .ok _ w3 => .ok ret w3

/-- `restoreTerminalMode`, src/unix-adapter/main.cc:141-152, for the descriptors in the list. -/
def restoreAll (env : Env) (original : Saved) : List Nat → World → Res Unit
  | [], w => .ok () w
  | i :: is, w =>
    if !original.valid i then restoreAll env original is w
    else
      match tcsetattr env w i (original.mode i) with
      | .exit w' => .exit w'
      | .ok _ w' => restoreAll env original is w'

/-- `restoreTerminalMode`, src/unix-adapter/main.cc:141-152. -/
def restoreTerminalMode (env : Env) (original : Saved) (w : World) : Res Unit :=
  restoreAll env original [0, 1, 2] w

end Winpty.TtyMode
