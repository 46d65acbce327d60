/-!
# Model of the key-sequence table, `src/agent/InputMap.h` and `InputMap.cc`

A node owns its children, so a tree value stands for a node and the pool it allocates from
(`SimplePool`, src/agent/SimplePool.h, whose allocations are assumed to succeed; `Model/KeyMemory.lean` models the
pointers and the pool, and C83 proves that they behave as this tree); in-place updates
through references become functional updates.  Bytes are `Nat`s below 256 (the code converts `char`
to `unsigned char` before using one).
-/
namespace Winpty.InputMap

/-- `InputMap::Key`, src/agent/InputMap.h:35-41. -/
structure Key where
  virtualKey : Nat := 0
  unicodeChar : Nat := 0
  keyState : Nat := 0
deriving DecidableEq, Repr

/-- The anonymous union of `InputMap::Node`, src/agent/InputMap.h:63-69: the used part of the `tiny`
arrays (pairs of value and child), or the 256 entries of a `Branch`. -/
inductive Kids (α : Type) where
  | tiny (entries : List (Nat × α))
  | branch (children : List (Option α))

/-- `InputMap::Node`, src/agent/InputMap.h:54-74. -/
inductive Node where
  | mk (key : Key) (childCount : Nat) (u : Kids Node)

/-- Field `key`.
src/agent/InputMap.h:60. -/
def Node.key : Node → Key | .mk k _ _ => k
/-- Field `childCount`.
src/agent/InputMap.h:61. -/
def Node.childCount : Node → Nat | .mk _ n _ => n
/-- Field `u`.
src/agent/InputMap.h:63-69. -/
def Node.u : Node → Kids Node | .mk _ _ u => u

/-- `Node::kTinyCount`, src/agent/InputMap.h:62. -/
def kTinyCount : Nat := 8

/-- `Node::Node`, src/agent/InputMap.h:55-58. -/
def newNode : Node := .mk {} 0 (.tiny [])

/-- `Node::hasKey`, src/agent/InputMap.h:71-73. -/
def hasKey (k : Key) : Bool := k.virtualKey != 0 || k.unicodeChar != 0

/-- The search loop over `tiny.values`, src/agent/InputMap.h:94-98. -/
def tinyFind : List (Nat × Node) → Nat → Option Node
  | [], _ => none
  | (v, c) :: r, ch => if v = ch then some c else tinyFind r ch

/-- `InputMap::getChild`, src/agent/InputMap.h:92-103.  Which union member is live depends on
`childCount`; reading the other one (never happens, see `Lemmas/InputMap.lean`) gives nothing here. -/
def getChild (n : Node) (ch : Nat) : Option Node :=
  if n.childCount ≤ kTinyCount then
    match n.u with
    | .tiny l => tinyFind l ch
    | .branch _ => none
  else
    match n.u with
    | .tiny _ => none
    | .branch b => b[ch]?.join

/-- The sorted insertion of `getOrCreateChild`, src/agent/InputMap.cc:158-171. -/
def tinyInsert : List (Nat × Node) → Nat → Node → List (Nat × Node)
  | [], ch, c => [(ch, c)]
  | (v, d) :: r, ch, c => if ch < v then (ch, c) :: (v, d) :: r else (v, d) :: tinyInsert r ch c

/-- The loop that fills a fresh `Branch` from the `tiny` arrays, src/agent/InputMap.cc:177-179. -/
def fillBranch : List (Option Node) → List (Nat × Node) → List (Option Node)
  | b, [] => b
  | b, (v, c) :: r => fillBranch (b.set v (some c)) r

/-- A fresh `Branch` (src/agent/InputMap.h:46-52) filled from the `tiny` arrays. -/
def toBranch (l : List (Nat × Node)) : List (Option Node) := fillBranch (List.replicate 256 none) l

/-- The creating part of `getOrCreateChild`, src/agent/InputMap.cc:153-186, where `c` is what the new
child becomes. -/
def addChild (n : Node) (ch : Nat) (c : Node) : Node :=
  if n.childCount < kTinyCount then
    match n.u with
    | .tiny l => .mk n.key (n.childCount + 1) (.tiny (tinyInsert l ch c))
    | .branch b => .mk n.key (n.childCount + 1) (.branch b)
  else if n.childCount = kTinyCount then
    match n.u with
    | .tiny l => .mk n.key (n.childCount + 1) (.branch ((toBranch l).set ch (some c)))
    | .branch b => .mk n.key (n.childCount + 1) (.branch b)
  else
    match n.u with
    | .tiny l => .mk n.key (n.childCount + 1) (.tiny l)
    | .branch b => .mk n.key (n.childCount + 1) (.branch (b.set ch (some c)))

/-- Writing through the reference of an existing `tiny` child.
src/agent/InputMap.cc:149. -/
def tinyUpdate : List (Nat × Node) → Nat → Node → List (Nat × Node)
  | [], _, _ => []
  | (v, d) :: r, ch, c => if v = ch then (v, c) :: r else (v, d) :: tinyUpdate r ch c

/-- Writing through the reference `getChild` returned.
src/agent/InputMap.cc:149. -/
def updateChild (n : Node) (ch : Nat) (c : Node) : Node :=
  match n.u with
  | .tiny l => .mk n.key n.childCount (.tiny (tinyUpdate l ch c))
  | .branch b => .mk n.key n.childCount (.branch (b.set ch (some c)))

/-- `InputMap::setHelper`, src/agent/InputMap.cc:145-151, with `getOrCreateChild`
(src/agent/InputMap.cc:153-186) inlined. -/
def setHelper (n : Node) : List Nat → Key → Node
  | [], k => .mk k n.childCount n.u
  | ch :: e, k =>
    match getChild n ch with
    | some c => updateChild n ch (setHelper c e k)
    | none => addChild n ch (setHelper newNode e k)

/-- `InputMap::set`, src/agent/InputMap.cc:140-143; `none` is the failed `ASSERT`. -/
def set (root : Node) (enc : List Nat) (k : Key) : Option Node :=
  if enc.length > 0 then some (setHelper root enc k) else none

/-- A sequence of `set` calls.
As made by src/agent/DefaultInputMap.cc:418-422. -/
def setAll : Node → List (List Nat × Key) → Option Node
  | root, [] => some root
  | root, (e, k) :: r =>
    match set root e k with
    | none => none
    | some root' => setAll root' r

/-- Result of `lookupKey`: the return value, `keyOut` and `incompleteOut`.
src/agent/InputMap.cc:189-190. -/
structure Lookup where
  len : Nat
  key : Key
  incomplete : Bool
deriving DecidableEq, Repr

/-- The loop of `lookupKey`, src/agent/InputMap.cc:198-211; `i` is the index of the next byte. -/
def lookupLoop (n : Node) (i : Nat) (bestLen : Nat) (best : Key) : List Nat → Lookup
  | [] => ⟨bestLen, best, decide (n.childCount > 0)⟩
  | ch :: r =>
    match getChild n ch with
    | none => ⟨bestLen, best, false⟩
    | some c =>
      if hasKey c.key then lookupLoop c (i + 1) (i + 1) c.key r
      else lookupLoop c (i + 1) bestLen best r

/-- `InputMap::lookupKey`, src/agent/InputMap.cc:189-212. -/
def lookupKey (root : Node) (input : List Nat) : Lookup := lookupLoop root 0 0 {} input

end Winpty.InputMap
