/-!
# Model of `src/shared/OwnedHandle.{h,cc}`

A program using `OwnedHandle` objects, over an operating system that keeps track of open handles.
Handle values are natural numbers; `nullptr` is 0.
-/
namespace Winpty.OwnedHandle

/-- `INVALID_HANDLE_VALUE`, `(HANDLE)-1` (64-bit), tested at src/shared/OwnedHandle.cc:27. -/
def invalidHandle : Nat := 2 ^ 64 - 1

/-- The test of `OwnedHandle::dispose`, src/shared/OwnedHandle.cc:27. -/
def mustClose (h : Nat) : Bool := h != 0 && h != invalidHandle

/-- The `OwnedHandle` objects alive (object number to `m_h`, src/shared/OwnedHandle.h:27), the
handles the operating system has open, the log of the handles it has given out and the log of the
successful `CloseHandle` calls, and how many `CloseHandle` calls have failed (given a value that is
not an open handle). -/
structure State where
  objs : Nat → Option Nat
  opened : Nat → Bool
  acquired : List Nat
  closed : List Nat
  failures : Nat

/-- Change of one entry (auxiliary: an assignment such as src/shared/OwnedHandle.cc:35). -/
def upd {α : Type} (f : Nat → α) (i : Nat) (v : α) : Nat → α := fun j => if j = i then v else f j

/-- `CloseHandle` of Windows: closes an open handle, fails on any other value (called at
src/shared/OwnedHandle.cc:28). -/
def closeHandle (s : State) (h : Nat) : State × Bool :=
  if s.opened h then
    ({ s with opened := upd s.opened h false, closed := s.closed ++ [h] }, true)
  else ({ s with failures := s.failures + 1 }, false)

/-- `OwnedHandle::dispose`, src/shared/OwnedHandle.cc:26-36, on object `i` whose `m_h` is `h`; the
second component is false if it threw. -/
def dispose (s : State) (i h : Nat) (nothrow : Bool) : State × Bool :=
  if mustClose h then
    match closeHandle s h with
    | (s', true) => ({ s' with objs := upd s'.objs i (some 0) }, true)
    | (s', false) =>
      if nothrow then ({ s' with objs := upd s'.objs i (some 0) }, true) else (s', false)
  else ({ s with objs := upd s.objs i (some 0) }, true)

/-- What a program can do with src/shared/OwnedHandle.h:26-43.  The arguments are object numbers, except for handle values `h`. -/
inductive Op where
  /-- the operating system gives out a new handle, as a plain value -/
  | acquire (h : Nat)
  /-- the program closes a plain handle value itself -/
  | closePlain (h : Nat)
  /-- `OwnedHandle()`, src/shared/OwnedHandle.h:29 -/
  | new (i : Nat)
  /-- `OwnedHandle(HANDLE h)`, line 30 -/
  | adopt (i h : Nat)
  /-- `OwnedHandle(OwnedHandle &&other)`, line 36 -/
  | moveNew (i j : Nat)
  /-- `operator=(OwnedHandle &&other)`, lines 38-42 -/
  | moveAssign (i j : Nat)
  /-- `dispose()`, line 32 -/
  | dispose (i : Nat)
  /-- `release()`, line 34 -/
  | release (i : Nat)
  /-- `~OwnedHandle()`, line 31 -/
  | destroy (i : Nat)
deriving DecidableEq, Repr

/-- One step, src/shared/OwnedHandle.h:26-43.  `none` if the step is not a possible step of a C++
program: it names an object that is not alive, or creates one that is. An exception thrown by
`dispose` leaves the state as it is at that point. -/
def step (s : State) : Op → Option State
  | .acquire h => some { s with opened := upd s.opened h true, acquired := s.acquired ++ [h] }
  | .closePlain h => some (closeHandle s h).1
  | .new i =>
    match s.objs i with
    | some _ => none
    | none => some { s with objs := upd s.objs i (some 0) }
  | .adopt i h =>
    match s.objs i with
    | some _ => none
    | none => some { s with objs := upd s.objs i (some h) }
  | .moveNew i j =>
    match s.objs i, s.objs j with
    | none, some h => some { s with objs := upd (upd s.objs j (some 0)) i (some h) }
    | _, _ => none
  | .moveAssign i j =>
    match s.objs i, s.objs j with
    | some hi, some _ =>
      match dispose s i hi false with
      | (s', false) => some s'
      | (s', true) =>
        match s'.objs j with
        | some hj => some { s' with objs := upd (upd s'.objs j (some 0)) i (some hj) }
        | none => none
    | _, _ => none
  | .dispose i =>
    match s.objs i with
    | some h => some (dispose s i h false).1
    | none => none
  | .release i =>
    match s.objs i with
    | some _ => some { s with objs := upd s.objs i (some 0) }
    | none => none
  | .destroy i =>
    match s.objs i with
    | some h =>
      match dispose s i h true with
      | (s', _) => some { s' with objs := upd s'.objs i none }
    | none => none

/-- Running a program: a sequence of uses of src/shared/OwnedHandle.h:26-43. -/
def run (s : State) : List Op → Option State
  | [] => some s
  | op :: ops =>
    match step s op with
    | none => none
    | some s' => run s' ops

/-- Nothing alive, nothing open: before the first use of src/shared/OwnedHandle.h:26-43. -/
def init : State := ⟨fun _ => none, fun _ => false, [], [], 0⟩

end Winpty.OwnedHandle
