import Verif.Lemmas.ConsoleReports
/-!
# What one scanning step can do, and invariants of whole histories
-/
namespace Winpty.ConsoleInput
open Winpty.Unicode Winpty.InputMap Winpty.Spec

/-- What handling one item of input does to the state. -/
inductive Effect (sys : Sys) (env : Env) (item : List Nat) (s : St) : St → Prop
  | ctrlC (h : item = [3]) :
      Effect sys env item s { flushInputRecords s with out := (flushInputRecords s).out ++ [.ctrlC] }
  | report (h : IsReport item) : Effect sys env item s { s with dsrSent := false }
  | mouse (r : MouseRecord) (h : MouseReport item r) : Effect sys env item s (handleMouse env s r)
  | key (k : Key) (h : (item, k) ∈ table) : Effect sys env item s (appendMatch s k)
  | char (c : Nat) (alt : Bool) (h : IsScalar c) (hi : item = (if alt then [27] else []) ++ utf8 c) :
      Effect sys env item s (appendChar sys s c alt)
  | skip (part : List Nat) (alt : Bool) (h : NotCharacter part) (hi : item = (if alt then [27] else []) ++ part) :
      Effect sys env item s s

theorem take_utf8 {b : Nat} {t rest : List Nat} {c : Nat} (hc : IsScalar c) (e : b :: t = utf8 c ++ rest) :
    (b :: t).take (utf8CharLength b) = utf8 c := by
  obtain ⟨b', t', e', _, l⟩ := utf8_head c hc
  have hb : b' = b := by rw [e'] at e; simp at e; exact e.1.symm
  subst hb
  rw [l, e, List.take_left']
  rfl

theorem decode_ascii {b : Nat} (h : b < 128) (t : List Nat) : decodeUtf8 (b :: t) = .ok b ∧ utf8CharLength b = 1 := by
  have hl : utf8CharLength b = 1 := by rw [utf8CharLength_eq b (by omega), if_pos h]
  exact ⟨by simp [decodeUtf8, hl], hl⟩

/-- A byte that begins no character. -/
theorem notChar_single {b : Nat} (hb : b < 256) (h : utf8CharLength b = 0) : NotCharacter [b] := by
  refine ⟨b, [], rfl, .inl ?_, ?_⟩
  · rw [utf8CharLength_eq b hb] at h
    repeat' split at h
    all_goals first | omega | (refine ⟨by omega, by omega, rfl⟩)
  · intro c hc e
    obtain ⟨b', t', e', _, l⟩ := utf8_head c hc
    rw [e', List.cons.injEq] at e
    rw [← e.1, h, e'] at l
    simp at l

/-- A byte with as many others as it announces, which together are not decoded. -/
theorem notChar_invalid {b : Nat} {t : List Nat} (hb : ∀ x ∈ b :: t, x < 256) (h0 : 0 < utf8CharLength b)
    (hl : utf8CharLength b ≤ (b :: t).length) (h : decodeUtf8 (b :: t) = .invalid) :
    NotCharacter ((b :: t).take (utf8CharLength b)) := by
  have hb0 := hb b (by simp)
  have h128 : 128 ≤ b := by
    apply Classical.byContradiction
    intro hlt
    rw [(decode_ascii (by omega) t).1] at h; cases h
  obtain ⟨n, hn⟩ : ∃ n, utf8CharLength b = n + 1 := ⟨_, (Nat.succ_pred (by omega)).symm⟩
  rw [hn] at hl ⊢
  refine ⟨b, t.take n, rfl, ?_, ?_⟩
  · rw [List.length_take]
    rw [List.length_cons] at hl
    rw [utf8CharLength_eq b hb0] at hn
    repeat' split at hn
    all_goals omega
  · intro c hc e
    have : b :: t = utf8 c ++ t.drop n := by
      rw [← e, List.take_succ_cons, List.cons_append, List.take_append_drop]
    rw [this, decode_utf8 c hc _ (fun x hx => hb x (List.mem_cons_of_mem _ (List.mem_of_mem_drop hx)))] at h
    cases h

theorem scanUtf8_effect {sys : Sys} {env : Env} {s s' : St} {input : List Nat} {n : Nat}
    (hb : ∀ b ∈ input, b < 256) (h : scanUtf8 sys s input = .consumed n s') :
    Effect sys env (input.take n) s s' := by
  cases input with
  | nil => simp [scanUtf8] at h
  | cons b t =>
    simp only [scanUtf8] at h
    split at h
    · rename_i h0
      cases h
      exact .skip [b] false (notChar_single (hb b (by simp)) h0) rfl
    · rename_i h0
      split at h
      · cases h
      · rename_i hl
        unfold appendUtf8Char at h
        cases hd : decodeUtf8 (b :: t) with
        | oob => simp [hd] at h
        | invalid =>
          simp only [hd] at h; cases h
          exact .skip _ false (notChar_invalid hb (by omega) (by omega) hd) rfl
        | ok c =>
          simp only [hd] at h; cases h
          obtain ⟨hc, rest, e⟩ := decode_inv _ hb c hd
          exact .char c _ hc (by rw [take_utf8 hc e]; rfl)

theorem scanAlt_effect {sys : Sys} {env : Env} {s s' : St} {input : List Nat} {n : Nat}
    (hb : ∀ b ∈ input, b < 256) (h : scanAlt sys s input = .consumed n s') :
    Effect sys env (input.take n) s s' := by
  unfold scanAlt at h
  split at h
  · rename_i b r
    split at h
    · rename_i hlen
      split at h
      · cases h
      · rename_i hl
        unfold appendUtf8Char at h
        cases hd : decodeUtf8 (b :: r) with
        | oob => simp [hd] at h
        | invalid =>
          simp only [hd] at h; cases h
          refine .skip _ true (notChar_invalid (fun x hx => hb x (List.mem_cons_of_mem _ hx)) hlen.2
            (by simp only [List.length_cons] at hl ⊢; omega) hd) ?_
          rw [Nat.add_comm, List.take_succ_cons]
          rfl
        | ok c =>
          simp only [hd] at h; cases h
          obtain ⟨hc, rest, e⟩ := decode_inv _ (fun x hx => hb x (List.mem_cons_of_mem _ hx)) c hd
          refine .char c _ hc ?_
          rw [Nat.add_comm, List.take_succ_cons, take_utf8 hc e]
          rfl
    · exact scanUtf8_effect hb h
  · exact scanUtf8_effect hb h

theorem scanMap_effect {sys : Sys} {root : Node} (hr : Holds root table) {env : Env} {s s' : St}
    {input : List Nat} {n : Nat} {eof : Bool}
    (hb : ∀ b ∈ input, b < 256) (h : scanMap sys root s input eof = .consumed n s') :
    Effect sys env (input.take n) s s' := by
  unfold scanMap at h
  split at h
  · cases h
  · split at h
    · rename_i hl
      cases h
      exact .key _ (table_lookup_mem hr hl).1
    · exact scanAlt_effect hb h

theorem take_sub (u r : List Nat) : (u ++ r).take ((u ++ r).length - r.length) = u := by
  rw [List.length_append, Nat.add_sub_cancel, List.take_left']
  rfl

theorem scanInput_effect {sys : Sys} {root : Node} (hr : Holds root table) {env : Env} {s s' : St}
    {input : List Nat} {n : Nat} {eof : Bool} (hb : ∀ b ∈ input, b < 256)
    (h : scanInput sys root env s input eof = .consumed n s') : Effect sys env (input.take n) s s' := by
  have hmouse : scanMouse sys root env s input eof = .consumed n s' → Effect sys env (input.take n) s s' := by
    intro h
    unfold scanMouse at h
    split at h
    · cases h
    · rename_i r rest hm
      cases h
      obtain ⟨u, e, hu⟩ := mouse_ok hm
      exact .mouse r (by rw [e, take_sub]; exact hu)
    · split at h
      · exact scanMap_effect hr hb h
      · cases h
    · exact scanMap_effect hr hb h
  cases input with
  | nil => simp [scanInput] at h
  | cons b t =>
    simp only [scanInput] at h
    split at h
    · rename_i h3; cases h; exact .ctrlC (by rw [h3.1]; rfl)
    · split at h
      · unfold scanEsc at h
        split at h
        · cases h
        · rename_i rest hm
          cases h
          obtain ⟨u, e, hu⟩ := parses_dsr.ok _ _ _ hm
          exact .report (by rw [e, take_sub]; exact hu)
        · split at h
          · exact hmouse h
          · cases h
        · exact hmouse h
      · exact scanMap_effect hr hb h

/-- An invariant of single steps is one of the loop. -/
theorem loop_inv {sys : Sys} {root : Node} (hr : Holds root table) {env : Nat → Env} {eof : Bool}
    (P : St → Prop) (hP : ∀ e item s s', P s → Effect sys e item s s' → P s') {fuel pos : Nat} {s s' : St}
    {q q' : List Nat} (hb : ∀ b ∈ q, b < 256) (h : scanLoop sys root env eof fuel pos s q = some (s', q'))
    (hs : P s) : P s' := by
  induction fuel generalizing pos s q with
  | zero =>
    cases q with
    | nil => cases h; exact hs
    | cons b q => simp [scanLoop] at h
  | succ fuel ih =>
    cases q with
    | nil => cases h; exact hs
    | cons b q =>
      rw [scanLoop] at h
      cases e : scanInput sys root (env pos) s (b :: q) eof with
      | incomplete => simp only [e] at h; cases h; exact hs
      | bad => simp [e] at h
      | consumed n s1 =>
        simp only [e] at h
        exact ih (fun x hx => hb x (List.mem_of_mem_drop hx)) h (hP _ _ _ _ hs (scanInput_effect hr hb e))

/-! ## Histories -/

/-- Something that happens to the agent's input side: bytes arrive, the poll timer fires, the console
mode is found to be `m`, or the visible window is now `r`. -/
inductive Op where
  | write (now : Nat) (bytes : List Nat)
  | poll (now : Nat)
  | mode (m : Nat)
  | window (r : Rect)

/-- One operation. -/
def exec (sys : Sys) (root : Node) (env : Nat → Env) (o : Obj) : Op → Option Obj
  | .write now bytes => writeInput sys root env now o bytes
  | .poll now => flushIncompleteEscapeCode sys root env now o
  | .mode m => some { o with st := updateInputFlags m o.st }
  | .window r => some { o with st := { o.st with rect := r } }

/-- A history of operations. -/
def execAll (sys : Sys) (root : Node) (env : Nat → Env) : Obj → List Op → Option Obj
  | o, [] => some o
  | o, op :: ops => (exec sys root env o op).bind fun o => execAll sys root env o ops

/-- Everything written in a history. -/
def written : List Op → List Nat
  | [] => []
  | .write _ bytes :: ops => bytes ++ written ops
  | _ :: ops => written ops

/-- Nothing ever fails. -/
theorem exec_total (sys : Sys) (root : Node) (env : Nat → Env) (o : Obj) (op : Op) :
    ∃ o', exec sys root env o op = some o' := by
  cases op with
  | write now bytes =>
    by_cases h : bytes = []
    · subst h; exact ⟨o, rfl⟩
    · obtain ⟨_, _, o', h1, _⟩ := writeInput_spec sys root env now o bytes h
      exact ⟨o', h1⟩
  | poll now =>
    simp only [exec, flushIncompleteEscapeCode]
    split
    · obtain ⟨s', c, q', h1, _⟩ := doWrite_total sys root env true o.pos o.st o.queue
      rw [h1]; exact ⟨_, rfl⟩
    · exact ⟨o, rfl⟩
  | mode m => exact ⟨_, rfl⟩
  | window r => exact ⟨_, rfl⟩

theorem execAll_total (sys : Sys) (root : Node) (env : Nat → Env) (o : Obj) (ops : List Op) :
    ∃ o', execAll sys root env o ops = some o' := by
  induction ops generalizing o with
  | nil => exact ⟨o, rfl⟩
  | cons op ops ih =>
    obtain ⟨o', h⟩ := exec_total sys root env o op
    obtain ⟨o'', h'⟩ := ih o'
    exact ⟨o'', by rw [execAll, h]; exact h'⟩

/-- What stays pending are bytes. -/
theorem loop_rest {sys : Sys} {root : Node} {env : Nat → Env} {eof : Bool} {fuel pos : Nat} {s s' : St}
    {q q' : List Nat} (h : scanLoop sys root env eof fuel pos s q = some (s', q')) : ∃ c, q = c ++ q' := by
  obtain ⟨items, hrun⟩ := Winpty.Props.run_of_loop h
  exact ⟨_, (Winpty.Props.run_flatten hrun).1⟩

/-- Invariants of histories: what holds of the state, is kept by every step, by flushing records, by
sending a status request, and by the other operations. -/
theorem exec_inv {sys : Sys} {root : Node} (hr : Holds root table) {env : Nat → Env} (P : St → Prop)
    (hP : ∀ e item s s', P s → Effect sys e item s s' → P s') (hflush : ∀ s, P s → P (flushInputRecords s))
    (hdsr : ∀ s, P s → s.records = [] → s.dsrSent = false → P { s with dsrSent := true, out := s.out ++ [.dsr] })
    {o o' : Obj} {op : Op} (hop : ∀ now bytes, op = .write now bytes → ∀ b ∈ bytes, b < 256)
    (hmode : ∀ m s, op = .mode m → P s → P (updateInputFlags m s))
    (hwin : ∀ r s, op = .window r → P s → P { s with rect := r })
    (h : exec sys root env o op = some o') (hq : ∀ b ∈ o.queue, b < 256) (ho : P o.st) :
    P o'.st ∧ ∀ b ∈ o'.queue, b < 256 := by
  cases op with
  | write now bytes =>
    simp only [exec, writeInput] at h
    split at h
    · cases h; exact ⟨ho, hq⟩
    · obtain ⟨s1, c, q1, h1, h2, h3, _⟩ := doWrite_total sys root env false o.pos o.st (o.queue ++ bytes)
      have hb : ∀ b ∈ o.queue ++ bytes, b < 256 := by
        intro b hb
        rcases List.mem_append.1 hb with hb | hb
        · exact hq b hb
        · exact hop now bytes rfl b hb
      have hs1 := hflush _ (loop_inv hr P hP hb h2 ho)
      have hq1 : ∀ b ∈ q1, b < 256 := fun b hb' => hb b (by rw [h3]; exact List.mem_append_right _ hb')
      rw [h1] at h
      simp only at h
      split at h
      · rename_i hc
        cases h
        exact ⟨hdsr _ hs1 rfl (by simpa using hc.2), hq1⟩
      · cases h; exact ⟨hs1, hq1⟩
  | poll now =>
    simp only [exec, flushIncompleteEscapeCode] at h
    split at h
    · obtain ⟨s1, c, q1, h1, h2, h3, _⟩ := doWrite_total sys root env true o.pos o.st o.queue
      rw [h1] at h
      cases h
      exact ⟨hflush _ (loop_inv hr P hP hq h2 ho), by simp⟩
    · cases h; exact ⟨ho, hq⟩
  | mode m => cases h; exact ⟨hmode m _ rfl ho, hq⟩
  | window r => cases h; exact ⟨hwin r _ rfl ho, hq⟩

theorem execAll_inv {sys : Sys} {root : Node} (hr : Holds root table) {env : Nat → Env} (P : St → Prop)
    (hP : ∀ e item s s', P s → Effect sys e item s s' → P s') (hflush : ∀ s, P s → P (flushInputRecords s))
    (hdsr : ∀ s, P s → s.records = [] → s.dsrSent = false → P { s with dsrSent := true, out := s.out ++ [.dsr] })
    {o o' : Obj} {ops : List Op} (hop : ∀ b ∈ written ops, b < 256)
    (hmode : ∀ m s, .mode m ∈ ops → P s → P (updateInputFlags m s))
    (hwin : ∀ r s, .window r ∈ ops → P s → P { s with rect := r })
    (h : execAll sys root env o ops = some o') (hq : ∀ b ∈ o.queue, b < 256) (ho : P o.st) : P o'.st := by
  induction ops generalizing o with
  | nil => cases h; exact ho
  | cons op ops ih =>
    obtain ⟨o1, h1⟩ := exec_total sys root env o op
    rw [execAll, h1, Option.bind_some] at h
    have hw : ∀ b ∈ written ops, b < 256 := by
      intro b hb
      apply hop b
      cases op <;> simp [written, hb]
    obtain ⟨i1, i2⟩ := exec_inv hr P hP hflush hdsr
      (by intro now bytes e b hb; subst e; exact hop b (by simp [written, hb]))
      (by intro m s e; subst e; exact hmode m s (by simp))
      (by intro m s e; subst e; exact hwin m s (by simp)) h1 hq ho
    exact ih hw (fun m s hm => hmode m s (List.mem_cons_of_mem _ hm))
      (fun m s hm => hwin m s (List.mem_cons_of_mem _ hm)) h i2 i1

end Winpty.ConsoleInput
