import Verif.Model.Client

/-!
# Model of the error objects of `src/libwinpty/winpty.cc` and their memory

The heap is a map from addresses to blocks.  Which allocations succeed is up to the environment; deleting
or reading what is not there is a distinct outcome (`wild`), and so is a failed `ASSERT`.
-/
namespace Winpty.ErrorObject

open Winpty.Client (Exn)

/-- What is allocated: the object `winpty_error_s` (src/libwinpty/WinptyInternal.h:35-42), the
`std::shared_ptr` it points to, and the string with the number of `shared_ptr`s that own it (the string, its
text and its control block as one). -/
inductive Block where
  | error (code : Nat) (msgStatic : Option String) (msgDynamic : Option Nat)
  | pointer (target : Nat)
  | string (text : String) (owners : Nat)
deriving DecidableEq, Repr

/-- The environment: whether the `k`th allocation succeeds, and how many allocations it takes to make a copy of
a text in UTF-8 (short strings need none).  src/libwinpty/winpty.cc:115-137. -/
structure Env where
  mem : Nat → Bool
  copies : String → Nat

/-- The heap: the next unused address, the number of allocations asked for, and the live blocks.
(src/libwinpty/winpty.cc:99-141; not in the code as data.)  Simplification: addresses are not used again. -/
structure Heap where
  next : Nat
  asked : Nat
  blocks : Nat → Option Block

/-- The static error objects, src/libwinpty/winpty.cc:57-73. -/
inductive Static where
  | outOfMemory
  | badRpcPacket
  | uncaughtException
deriving DecidableEq, Repr

/-- `winpty_error_ptr_t`: src/include/winpty.h:46-55. -/
inductive Ptr where
  | null
  | static (s : Static)
  | heap (a : Nat)
deriving DecidableEq, Repr

/-- A step with the heap: it ends, throws `std::bad_alloc`, uses memory that is not live, or fails an
`ASSERT`.  (src/libwinpty/winpty.cc:76-141.) -/
inductive Res (α : Type) where
  | ok (a : α) (h : Heap)
  | throws (h : Heap)
  | wild
  | assertFail

/-- One step after the other; an exception passes.  (src/libwinpty/winpty.cc:106-141.) -/
def Res.bind {α β : Type} (r : Res α) (f : α → Heap → Res β) : Res β :=
  match r with
  | .ok a h => f a h
  | .throws h => .throws h
  | .wild => .wild
  | .assertFail => .assertFail

/-- A block stored at an address.  (src/libwinpty/winpty.cc:115-129.) -/
def Heap.set (h : Heap) (a : Nat) (b : Option Block) : Heap :=
  { h with blocks := fun x => if x = a then b else h.blocks x }

/-- `new`, at src/libwinpty/winpty.cc:115, 119, 122, 123 and 126. -/
def new (env : Env) (b : Block) (h : Heap) : Res Nat :=
  if env.mem h.asked then
    .ok h.next { (h.set h.next (some b)) with next := h.next + 1, asked := h.asked + 1 }
  else .throws { h with asked := h.asked + 1 }

/-- One more owner of a string: copying a `shared_ptr`, src/libwinpty/winpty.cc:119 and 126. -/
def share (a : Nat) (h : Heap) : Res Unit :=
  match h.blocks a with
  | some (.string t n) => .ok () (h.set a (some (.string t (n + 1))))
  | _ => .wild

/-- One owner less: the destructor of a `shared_ptr`, src/libwinpty/winpty.cc:101 and 128, and of the exception
at the end of its handler (src/libwinpty/LibWinptyException.h:51). -/
def unshare (a : Nat) (h : Heap) : Res Unit :=
  match h.blocks a with
  | some (.string t n) => .ok () (h.set a (if n ≤ 1 then none else some (.string t (n - 1))))
  | _ => .wild

/-- `delete` of the error object, src/libwinpty/winpty.cc:102 and by the `unique_ptr` of 115 and 122. -/
def deleteError (a : Nat) (h : Heap) : Res Unit :=
  match h.blocks a with
  | some (.error _ _ _) => .ok () (h.set a none)
  | _ => .wild

/-- `delete err->msgDynamic`, src/libwinpty/winpty.cc:101. -/
def deletePointer (a : Nat) (h : Heap) : Res Unit :=
  match h.blocks a with
  | some (.pointer s) => unshare s (h.set a none)
  | _ => .wild

/-- The fields of the static errors, src/libwinpty/winpty.cc:57-73. -/
def staticError : Static → Nat × String
  | .outOfMemory => (1, "Out of memory")
  | .badRpcPacket => (5, "Bad RPC packet")
  | .uncaughtException => (5, "Uncaught C++ exception")

/-- `winpty_error_code`, src/libwinpty/winpty.cc:76-78. -/
def errorCode (p : Ptr) (h : Heap) : Res Nat :=
  match p with
  | .null => .ok 0 h
  | .static s => .ok (staticError s).1 h
  | .heap a =>
    match h.blocks a with
    | some (.error code _ _) => .ok code h
    | _ => .wild

/-- The text of a `shared_ptr<wstring> *`, src/libwinpty/winpty.cc:88-90. -/
def pointedText (p : Nat) (h : Heap) : Res String :=
  match h.blocks p with
  | some (.pointer s) =>
    match h.blocks s with
    | some (.string t _) => .ok t h
    | _ => .wild
  | _ => .wild

/-- `winpty_error_msg`, src/libwinpty/winpty.cc:82-95. -/
def errorMsg (p : Ptr) (h : Heap) : Res String :=
  match p with
  | .null => .ok "Success" h
  | .static s => .ok (staticError s).2 h
  | .heap a =>
    match h.blocks a with
    | some (.error _ (some t) _) => .ok t h
    | some (.error _ none (some p)) => pointedText p h
    | some (.error _ none none) => .assertFail
    | _ => .wild

/-- `winpty_error_free`, src/libwinpty/winpty.cc:99-104. -/
def errorFree (p : Ptr) (h : Heap) : Res Unit :=
  match p with
  | .null => .ok () h
  | .static _ => .ok () h
  | .heap a =>
    match h.blocks a with
    | some (.error _ _ (some p)) => (deletePointer p h).bind fun _ h => deleteError a h
    | some (.error _ _ none) => .ok () h
    | _ => .wild

/-- Run the step; if it throws, delete the error object (the `unique_ptr` of src/libwinpty/winpty.cc:115
and 122) and go on throwing. -/
def guarded {α : Type} (a : Nat) (r : Res α) : Res α :=
  match r with
  | .throws h => (deleteError a h).bind fun _ h => .throws h
  | r => r

/-- Lines 115-120 of src/libwinpty/winpty.cc: the object for a `LibWinptyException` whose text is at `s`. -/
def fromLib (env : Env) (code s : Nat) (h : Heap) : Res Ptr :=
  (new env (.error 0 none none) h).bind fun a h =>
    guarded a ((new env (.pointer s) h).bind fun p h => (share s h).bind fun _ h =>
      .ok (.heap a) (h.set a (some (.error code none (some p)))))

/-- Line 123 of src/libwinpty/winpty.cc: a new string and its `shared_ptr`, whose control block may fail, too,
and then the string is deleted. -/
def newText (env : Env) (t : String) (h : Heap) : Res Nat :=
  (new env (.string t 1) h).bind fun s h =>
    if env.mem h.asked then .ok s { h with asked := h.asked + 1 }
    else (unshare s { h with asked := h.asked + 1 }).bind fun _ h => .throws h

/-- Run the step; if it throws, the local `shared_ptr` at src/libwinpty/winpty.cc:123 is destroyed. -/
def guardedText {α : Type} (s : Nat) (r : Res α) : Res α :=
  match r with
  | .throws h => (unshare s h).bind fun _ h => .throws h
  | r => r

/-- Lines 122-128 of src/libwinpty/winpty.cc: the object for any other `WinptyException` with this text. -/
def fromWinpty (env : Env) (t : String) (h : Heap) : Res Ptr :=
  (new env (.error 0 none none) h).bind fun a h =>
    guarded a ((newText env t h).bind fun s h =>
      guardedText s ((new env (.pointer s) h).bind fun p h => (share s h).bind fun _ h =>
        (unshare s (h.set a (some (.error 5 none (some p))))).bind fun _ h => .ok (.heap a) h))

/-- The `catch` of the allocations, src/libwinpty/winpty.cc:130-131. -/
def orOutOfMemory (r : Res Ptr) : Res Ptr :=
  match r with
  | .throws h => .ok (.static .outOfMemory) h
  | r => r

/-- The handlers of src/libwinpty/winpty.cc:109-134: the error object.  `s` is the address of the exception's
text. -/
def handlers (env : Env) (e : Exn) (s : Nat) (h : Heap) : Res Ptr :=
  match e with
  | .decode => .ok (.static .badRpcPacket) h
  | .lib code _ => orOutOfMemory (fromLib env code s h)
  | .winpty t => orOutOfMemory (fromWinpty env t h)
  | .badAlloc => .ok (.static .outOfMemory) h
  | .other => .ok (.static .uncaughtException) h

/-- Memory that is used only within a statement: so many allocations, all of them given back.
(For the `std::wstring`, the vector and the `std::string` of `utf8FromWide` and its argument, src/libwinpty/winpty.cc:135-137, src/shared/StringUtil.cc:39-55.) -/
def temporaries (env : Env) : Nat → Heap → Res Unit
  | 0, h => .ok () h
  | n + 1, h =>
    if env.mem h.asked then temporaries env n { h with asked := h.asked + 1 }
    else .throws { h with asked := h.asked + 1 }

/-- The trace message, src/libwinpty/winpty.cc:135-137.  Its arguments are evaluated whether tracing is on
or not. -/
def traceError (env : Env) (p : Ptr) (h : Heap) : Res Unit :=
  (errorCode p h).bind fun _ h => (errorMsg p h).bind fun t h => temporaries env (env.copies t) h

/-- `translateException`, src/libwinpty/winpty.cc:106-141: what is stored in `*err` (`null` if there is no
`err`). -/
def translateException (env : Env) (e : Exn) (s : Nat) (wantErr : Bool) (h : Heap) : Res Ptr :=
  (handlers env e s h).bind fun p h => (traceError env p h).bind fun _ h =>
    if wantErr then .ok p h else (errorFree p h).bind fun _ h => .ok .null h

/-- The text an exception carries: src/libwinpty/LibWinptyException.h:34, src/shared/WinptyException.cc:32. -/
def exnText : Exn → Option String
  | .lib _ t => some t
  | .winpty t => some t
  | _ => none

/-- The end of the exception, after its handler or when another one leaves it
(src/libwinpty/LibWinptyException.h:51). -/
def endExn (e : Exn) (s : Nat) (h : Heap) : Res Unit :=
  if (exnText e).isSome then unshare s h else .ok () h

/-- The exception is thrown: its text is in memory (if it had not fit, this would be `std::bad_alloc`).
src/libwinpty/LibWinptyException.h:33-34. -/
def throwExn (e : Exn) (h : Heap) : Heap :=
  match exnText e with
  | some t => { (h.set h.next (some (.string t 1))) with next := h.next + 1 }
  | none => h

/-- What the caller of the library sees of a call: it returns, with this in `*err`, or an exception leaves
it.  (`API_TRY`, `API_CATCH`: src/libwinpty/winpty.cc:143-148.) -/
inductive Back where
  | returned (p : Ptr)
  | threw
deriving DecidableEq, Repr

/-- `API_CATCH` with the end of the exception, src/libwinpty/winpty.cc:147-148. -/
def catchAll (env : Env) (e : Exn) (wantErr : Bool) (h : Heap) : Res Back :=
  match translateException env e h.next wantErr (throwExn e h) with
  | .ok p h' => (endExn e h.next h').bind fun _ h' => .ok (.returned p) h'
  | .throws h' => (endExn e h.next h').bind fun _ h' => .ok .threw h'
  | .wild => .wild
  | .assertFail => .assertFail

/-- What a program does with the library, as far as errors are concerned: a call (with the exception inside
it, if any), and the functions for the error object of the `n`th call (counted from 0).
src/include/winpty.h:46-76. -/
inductive Op where
  | call (e : Option Exn) (wantErr : Bool)
  | code (n : Nat)
  | msg (n : Nat)
  | free (n : Nat)
deriving DecidableEq, Repr

/-- What an operation gives back.  (src/libwinpty/winpty.cc:76-104, 143-148.) -/
inductive Answer where
  | back (b : Back)
  | code (c : Nat)
  | text (t : String)
  | done
deriving DecidableEq, Repr

/-- The program: the heap and what its calls gave it, in order.
(src/libwinpty/winpty.cc:143-148: `*err`.) -/
structure State where
  heap : Heap
  got : List Back

/-- The pointer the program has from call `n`: `*err` is null when an exception leaves the call
(src/libwinpty/winpty.cc:144). -/
def State.ptr (s : State) (n : Nat) : Ptr :=
  match s.got[n]? with
  | some (.returned p) => p
  | _ => .null

/-- One operation.  src/libwinpty/winpty.cc:76-148. -/
def step (env : Env) (s : State) : Op → Res (Answer × List Back)
  | .call none _ => .ok (.back (.returned .null), s.got ++ [.returned .null]) s.heap
  | .call (some e) wantErr =>
    (catchAll env e wantErr s.heap).bind fun b h => .ok (.back b, s.got ++ [b]) h
  | .code n => (errorCode (s.ptr n) s.heap).bind fun c h => .ok (.code c, s.got) h
  | .msg n => (errorMsg (s.ptr n) s.heap).bind fun t h => .ok (.text t, s.got) h
  | .free n => (errorFree (s.ptr n) s.heap).bind fun _ h => .ok (.done, s.got) h

/-- A run of operations with their answers; `none` if memory that is not live was used or an `ASSERT` failed.
src/libwinpty/winpty.cc:76-148. -/
def run (env : Env) : State → List Op → Option (State × List Answer)
  | s, [] => some (s, [])
  | s, op :: ops =>
    match step env s op with
    | .ok (a, got) h => (run env ⟨h, got⟩ ops).map fun r => (r.1, a :: r.2)
    | _ => none

/-- The start: nothing allocated.  (src/libwinpty/winpty.cc:57-73: the static objects need no heap.) -/
def start : State := ⟨⟨0, 0, fun _ => none⟩, []⟩

end Winpty.ErrorObject
