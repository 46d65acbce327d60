import Verif.Model.InputMap
/-!
# Model of the key table's memory, `src/agent/SimplePool.h` and the pointers of `InputMap`

`Model/InputMap.lean` lets a tree value stand for the nodes and the pools they live in.  Here the nodes are
objects at addresses in blocks obtained with `malloc`, linked by pointers, with the fixed arrays and the
union of the code.  Reading an object that does not exist, an array element that was never written or past
the end of an array, and the union member that was not written last is undefined behaviour; so are
destroying an object that does not exist and freeing a block twice.  Blocks are numbered in the order of
their allocation and numbers are not reused (simplification).
-/
namespace Winpty.KeyMemory
open Winpty.InputMap (Key Lookup hasKey)

/-- How a piece of code ends.
`abort` is the failed `ASSERT` of src/agent/SimplePool.h:64 or src/agent/InputMap.cc:141. -/
inductive Res (α : Type) where
  | ok (a : α)
  | undefined
  | abort
deriving DecidableEq, Repr

/-- Sequencing: what follows happens only if the code before it ended normally.
(Used for every pair of statements of src/agent/InputMap.cc:140-186.) -/
def Res.bind {α β : Type} : Res α → (α → Res β) → Res β
  | .ok a, f => f a
  | .undefined, _ => .undefined
  | .abort, _ => .abort

/-- A value that must be there.
An indirection through a pointer, e.g. src/agent/InputMap.h:101. -/
def must {α : Type} : Option α → Res α
  | some a => .ok a
  | none => .undefined

/-! ## The pool -/

/-- Storage for one `T` in a block: no object yet, an object, or an object that was destroyed.
The elements of `data`, src/agent/SimplePool.h:38. -/
inductive Slot (α : Type) where
  | raw
  | obj (v : α)
  | dead
deriving DecidableEq, Repr

/-- `SimplePool::Chunk`, src/agent/SimplePool.h:36-39; `data` is the number of the block. -/
structure Chunk where
  count : Nat
  data : Nat
deriving DecidableEq, Repr

/-- The address of an object: its block and the index in it.
`&chunk.data[...]`, src/agent/SimplePool.h:69. -/
structure Addr where
  block : Nat
  index : Nat
deriving DecidableEq, Repr

/-- What the pool did with its memory.
src/agent/SimplePool.h:54, 56, 63 and 70. -/
inductive Ev where
  | malloced (block : Nat)
  | constructed (a : Addr)
  | destroyed (a : Addr)
  | freed (block : Nat)
deriving DecidableEq, Repr

/-- `SimplePool`, src/agent/SimplePool.h:29-41, with the blocks it obtained (`none`: freed) and a record of
what it did with them. -/
structure Pool (α : Type) where
  chunks : List Chunk := []
  blocks : List (Option (List (Slot α))) := []
  log : List Ev := []
deriving DecidableEq, Repr

/-- The object in a place, if there is one.
What an access through `&chunk.data[...]` needs, src/agent/SimplePool.h:69. -/
def slotVal {α : Type} : Option (Slot α) → Option α
  | some (.obj v) => some v
  | _ => none

/-- Reading the object at an address.
The uses of the pointers `alloc` returns, e.g. src/agent/InputMap.h:92-103. -/
def Pool.read {α : Type} (pl : Pool α) (a : Addr) : Option α :=
  match pl.blocks[a.block]? with
  | some (some slots) => slotVal slots[a.index]?
  | _ => none

/-- Storing an object at an address of a live block.
The effect of src/agent/SimplePool.h:70, and of an assignment through a pointer. -/
def Pool.store {α : Type} (pl : Pool α) (a : Addr) (v : α) : Option (Pool α) :=
  match pl.blocks[a.block]? with
  | some (some slots) =>
    if a.index < slots.length then
      some { pl with blocks := pl.blocks.set a.block (some (slots.set a.index (.obj v))) }
    else none
  | _ => none

/-- Assigning to the object at an address, which must exist.
E.g. src/agent/InputMap.cc:147 and 172-173. -/
def Pool.write {α : Type} (pl : Pool α) (a : Addr) (v : α) : Res (Pool α) :=
  match pl.read a with
  | some _ => must (pl.store a v)
  | none => .undefined

/-- The test of `alloc` whether a new block is needed, src/agent/SimplePool.h:62. -/
def Pool.full {α : Type} (chunkSize : Nat) (pl : Pool α) : Bool :=
  match pl.chunks.getLast? with
  | none => true
  | some c => c.count == chunkSize

/-- The first part of `SimplePool::alloc`, src/agent/SimplePool.h:62-67.  `hasMemory i` tells whether the
`i`-th `malloc` of this pool succeeds. -/
def Pool.room {α : Type} (chunkSize : Nat) (hasMemory : Nat → Bool) (pl : Pool α) : Res (Pool α) :=
  if pl.full chunkSize then
    if hasMemory pl.blocks.length then
      .ok { chunks := pl.chunks ++ [⟨0, pl.blocks.length⟩]
            blocks := pl.blocks ++ [some (List.replicate chunkSize .raw)]
            log := pl.log ++ [.malloced pl.blocks.length] }
    else .abort
  else .ok pl

/-- The second part of `SimplePool::alloc`, src/agent/SimplePool.h:68-71; `init` is what `T()` makes. -/
def Pool.place {α : Type} (init : α) (pl : Pool α) : Res (Pool α × Addr) :=
  match pl.chunks.getLast? with
  | none => .undefined
  | some c =>
    match pl.store ⟨c.data, c.count⟩ init with
    | none => .undefined
    | some pl' =>
      .ok ({ pl' with chunks := pl.chunks.dropLast ++ [{ c with count := c.count + 1 }]
                      log := pl.log ++ [.constructed ⟨c.data, c.count⟩] }, ⟨c.data, c.count⟩)

/-- `SimplePool::alloc`, src/agent/SimplePool.h:60-72. -/
def Pool.alloc {α : Type} (chunkSize : Nat) (hasMemory : Nat → Bool) (init : α) (pl : Pool α) :
    Res (Pool α × Addr) :=
  (pl.room chunkSize hasMemory).bind (Pool.place init)

/-- The inner loop of `clear`, src/agent/SimplePool.h:53-55: `n` objects are to be destroyed, the next one at
index `ti`; `slots` is the rest of the block. -/
def destroyLoop {α : Type} (block : Nat) : Nat → Nat → List (Slot α) → Option (List Ev)
  | 0, _, _ => some []
  | n + 1, ti, .obj _ :: slots =>
    match destroyLoop block n (ti + 1) slots with
    | none => none
    | some evs => some (.destroyed ⟨block, ti⟩ :: evs)
  | _ + 1, _, _ => none

/-- The outer loop of `clear`, src/agent/SimplePool.h:51-57. -/
def clearLoop {α : Type} : List Chunk → Pool α → Res (Pool α)
  | [], pl => .ok pl
  | c :: cs, pl =>
    match pl.blocks[c.data]? with
    | some (some slots) =>
      match destroyLoop c.data c.count 0 slots with
      | none => .undefined
      | some evs => clearLoop cs { pl with blocks := pl.blocks.set c.data none
                                           log := pl.log ++ evs ++ [.freed c.data] }
    | _ => .undefined

/-- `SimplePool::clear`, src/agent/SimplePool.h:50-58, which is all the destructor does
(src/agent/SimplePool.h:45-47). -/
def Pool.clear {α : Type} (pl : Pool α) : Res (Pool α) :=
  (clearLoop pl.chunks pl).bind fun pl' => .ok { pl' with chunks := [] }

/-! ## Nodes and pointers -/

/-- A `Node *` that is not null: `&m_root` or a node of the pool, src/agent/InputMap.h:77-79. -/
inductive Ptr where
  | root
  | pool (a : Addr)
deriving DecidableEq, Repr

/-- `Node::u`, src/agent/InputMap.h:63-69: the two arrays of `tiny`, whose elements have no value until they
are assigned, or the pointer to a `Branch`. -/
inductive Union where
  | tiny (values : List (Option Nat)) (children : List (Option Ptr))
  | branch (b : Addr)
deriving DecidableEq, Repr

/-- `Node::kTinyCount`, src/agent/InputMap.h:62. -/
def tinyCount : Nat := 8

/-- `Node`, src/agent/InputMap.h:54-74, and its constructor (55-58): the union is not initialised. -/
structure Nd where
  key : Key := {}
  childCount : Nat := 0
  u : Union := .tiny (List.replicate tinyCount none) (List.replicate tinyCount none)
deriving DecidableEq, Repr

/-- `Branch::Branch`, src/agent/InputMap.h:46-52: 256 null pointers. -/
def newBranch : List (Option Ptr) := List.replicate 256 none

/-- The members of `InputMap`, src/agent/InputMap.h:77-79. -/
structure Map where
  root : Nd := {}
  nodes : Pool Nd := {}
  branches : Pool (List (Option Ptr)) := {}

/-- Which allocations succeed, for the two pools.
`malloc`, src/agent/SimplePool.h:63. -/
structure Memory where
  nodes : Nat → Bool
  branches : Nat → Bool

/-- The object behind a `Node &`.
src/agent/InputMap.h:92. -/
def readNode (m : Map) : Ptr → Res Nd
  | .root => .ok m.root
  | .pool a => must (m.nodes.read a)

/-- Assigning to the object behind a `Node &`.
src/agent/InputMap.cc:147, 173-174, 181 and 184. -/
def writeNode (m : Map) (p : Ptr) (n : Nd) : Res Map :=
  match p with
  | .root => .ok { m with root := n }
  | .pool a => (m.nodes.write a n).bind fun pl => .ok { m with nodes := pl }

/-- The loop over `tiny.values` of `getChild`, src/agent/InputMap.h:94-98: `rem` entries are left, the next
one is the `i`-th. -/
def findLoop (values : List (Option Nat)) (children : List (Option Ptr)) (ch : Nat) : Nat → Nat → Res (Option Ptr)
  | 0, _ => .ok none
  | rem + 1, i =>
    match values[i]? with
    | some (some v) =>
      if v = ch then
        match children[i]? with
        | some (some c) => .ok (some c)
        | _ => .undefined
      else findLoop values children ch rem (i + 1)
    | _ => .undefined

/-- `getChild` on the node it read, src/agent/InputMap.h:93-102. -/
def childOf (m : Map) (n : Nd) (ch : Nat) : Res (Option Ptr) :=
  if n.childCount ≤ tinyCount then
    match n.u with
    | .tiny values children => findLoop values children ch n.childCount 0
    | .branch _ => .undefined
  else
    match n.u with
    | .tiny _ _ => .undefined
    | .branch b =>
      match m.branches.read b with
      | some arr => must arr[ch]?
      | none => .undefined

/-- `InputMap::getChild`, src/agent/InputMap.h:92-103. -/
def getChild (m : Map) (p : Ptr) (ch : Nat) : Res (Option Ptr) :=
  (readNode m p).bind fun n => childOf m n ch

/-- The search for `insertIndex`, src/agent/InputMap.cc:160-166: `rem` entries are left, the next one is the
`i`-th. -/
def insertLoop (values : List (Option Nat)) (ch : Nat) (count : Nat) : Nat → Nat → Res Nat
  | 0, _ => .ok count
  | rem + 1, i =>
    match values[i]? with
    | some (some v) => if ch < v then .ok i else insertLoop values ch count rem (i + 1)
    | _ => .undefined

/-- The loop that makes room in the arrays, src/agent/InputMap.cc:167-170, where `j = insertIndex + n` for
the remaining number `n` of steps. -/
def shiftLoop (insertIndex : Nat) : Nat → List (Option Nat) → List (Option Ptr) →
    Res (List (Option Nat) × List (Option Ptr))
  | 0, values, children => .ok (values, children)
  | n + 1, values, children =>
    match values[insertIndex + n]?, children[insertIndex + n]? with
    | some (some v), some (some c) =>
      if insertIndex + n + 1 < values.length then
        shiftLoop insertIndex n (values.set (insertIndex + n + 1) (some v))
          (children.set (insertIndex + n + 1) (some c))
      else .undefined
    | _, _ => .undefined

/-- Storing the new entry, src/agent/InputMap.cc:171-172. -/
def storeEntry (i ch : Nat) (q : Ptr) (vc : List (Option Nat) × List (Option Ptr)) : Res Union :=
  if i < vc.1.length then .ok (.tiny (vc.1.set i (some ch)) (vc.2.set i (some q))) else .undefined

/-- Inserting into the arrays, src/agent/InputMap.cc:160-172, where `q` is the new node. -/
def insertTiny (values : List (Option Nat)) (children : List (Option Ptr)) (count ch : Nat) (q : Ptr) :
    Res Union :=
  (insertLoop values ch count count 0).bind fun i =>
    (shiftLoop i (count - i) values children).bind (storeEntry i ch q)

/-- The loop that fills a new branch, src/agent/InputMap.cc:177-179 (the stores are collected and written
through the pointer at the end). -/
def fillLoop (values : List (Option Nat)) (children : List (Option Ptr)) : Nat → Nat → List (Option Ptr) →
    Res (List (Option Ptr))
  | 0, _, arr => .ok arr
  | rem + 1, i, arr =>
    match values[i]?, children[i]? with
    | some (some v), some (some c) =>
      if v < arr.length then fillLoop values children rem (i + 1) (arr.set v (some c)) else .undefined
    | _, _ => .undefined

/-- `m_nodePool.alloc()`, src/agent/InputMap.cc:172 and 183; the pool has blocks of 256 nodes
(src/agent/InputMap.h:77). -/
def allocNode (mem : Memory) (m : Map) : Res (Map × Ptr) :=
  (m.nodes.alloc 256 mem.nodes {}).bind fun r => .ok ({ m with nodes := r.1 }, .pool r.2)

/-- `m_branchPool.alloc()`, src/agent/InputMap.cc:177; the pool has blocks of 8 branches
(src/agent/InputMap.h:78). -/
def allocBranch (mem : Memory) (m : Map) : Res (Map × Addr) :=
  (m.branches.alloc 8 mem.branches newBranch).bind fun r => .ok ({ m with branches := r.1 }, r.2)

/-- The case of a node with few children, src/agent/InputMap.cc:158-175.  (The new node is allocated first
here and the arrays are changed on a copy that is written back; the code allocates at line 172.) -/
def addTiny (mem : Memory) (m : Map) (p : Ptr) (n : Nd) (ch : Nat) : Res (Map × Ptr) :=
  match n.u with
  | .tiny values children =>
    (allocNode mem m).bind fun r =>
      (insertTiny values children n.childCount ch r.2).bind fun u =>
        (writeNode r.1 p { n with childCount := n.childCount + 1, u := u }).bind fun m' => .ok (m', r.2)
  | .branch _ => .undefined

/-- Changing the representation when the arrays are full, src/agent/InputMap.cc:176-182. -/
def grow (mem : Memory) (m : Map) (p : Ptr) (n : Nd) : Res (Map × Nd) :=
  if n.childCount = tinyCount then
    match n.u with
    | .tiny values children =>
      (allocBranch mem m).bind fun r =>
        (fillLoop values children n.childCount 0 newBranch).bind fun arr =>
          (r.1.branches.write r.2 arr).bind fun brs =>
            (writeNode { r.1 with branches := brs } p { n with u := .branch r.2 }).bind fun m' =>
              .ok (m', { n with u := .branch r.2 })
    | .branch _ => .undefined
  else .ok (m, n)

/-- The rest of the case of a node with many children, src/agent/InputMap.cc:183-185. -/
def addBranch (mem : Memory) (m : Map) (p : Ptr) (n : Nd) (ch : Nat) : Res (Map × Ptr) :=
  match n.u with
  | .branch b =>
    (allocNode mem m).bind fun r =>
      (must (r.1.branches.read b)).bind fun arr =>
        (if ch < arr.length then r.1.branches.write b (arr.set ch (some r.2)) else .undefined).bind fun brs =>
          (writeNode { r.1 with branches := brs } p { n with childCount := n.childCount + 1 }).bind fun m' =>
            .ok (m', r.2)
  | .tiny _ _ => .undefined

/-- The part of `getOrCreateChild` after a failed search, src/agent/InputMap.cc:158-185. -/
def create (mem : Memory) (m : Map) (p : Ptr) (n : Nd) (ch : Nat) : Res (Map × Ptr) :=
  if n.childCount < tinyCount then addTiny mem m p n ch
  else (grow mem m p n).bind fun r => addBranch mem r.1 p r.2 ch

/-- The case distinction of `getOrCreateChild`, src/agent/InputMap.cc:155-158. -/
def orCreate (mem : Memory) (m : Map) (p : Ptr) (ch : Nat) : Option Ptr → Res (Map × Ptr)
  | some q => .ok (m, q)
  | none => (readNode m p).bind fun n => create mem m p n ch

/-- `InputMap::getOrCreateChild`, src/agent/InputMap.cc:153-186. -/
def getOrCreateChild (mem : Memory) (m : Map) (p : Ptr) (ch : Nat) : Res (Map × Ptr) :=
  (getChild m p ch).bind (orCreate mem m p ch)

/-- `InputMap::setHelper`, src/agent/InputMap.cc:145-151. -/
def setHelper (mem : Memory) : Map → Ptr → List Nat → Key → Res Map
  | m, p, [], k => (readNode m p).bind fun n => writeNode m p { n with key := k }
  | m, p, ch :: e, k => (getOrCreateChild mem m p ch).bind fun r => setHelper mem r.1 r.2 e k

/-- `InputMap::set`, src/agent/InputMap.cc:140-143. -/
def set (mem : Memory) (m : Map) (enc : List Nat) (k : Key) : Res Map :=
  if enc.length > 0 then setHelper mem m .root enc k else .abort

/-- A sequence of `set` calls.
As made by src/agent/DefaultInputMap.cc:418-422. -/
def setAll (mem : Memory) : Map → List (List Nat × Key) → Res Map
  | m, [] => .ok m
  | m, r :: rs => (set mem m r.1 r.2).bind fun m' => setAll mem m' rs

/-- The loop of `lookupKey`, src/agent/InputMap.cc:198-211; `i` is the index of the next byte. -/
def lookupLoop (m : Map) (p : Ptr) (i bestLen : Nat) (best : Key) : List Nat → Res Lookup
  | [] => (readNode m p).bind fun n => .ok ⟨bestLen, best, decide (n.childCount > 0)⟩
  | ch :: r =>
    (getChild m p ch).bind fun c =>
      match c with
      | none => .ok ⟨bestLen, best, false⟩
      | some q =>
        (readNode m q).bind fun n =>
          if hasKey n.key then lookupLoop m q (i + 1) (i + 1) n.key r
          else lookupLoop m q (i + 1) bestLen best r

/-- `InputMap::lookupKey`, src/agent/InputMap.cc:189-212. -/
def lookupKey (m : Map) (input : List Nat) : Res Lookup := lookupLoop m .root 0 0 {} input

/-- The implicit destructor of `InputMap`, src/agent/InputMap.h:77-79: the branches, then the nodes. -/
def destroy (m : Map) : Res Map :=
  m.branches.clear.bind fun brs => m.nodes.clear.bind fun nds => .ok { m with nodes := nds, branches := brs }

end Winpty.KeyMemory
