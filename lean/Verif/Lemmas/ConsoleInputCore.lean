import Verif.Lemmas.ConsoleInputScan
/-!
# Scanning does not depend on when records are flushed or status requests are sent
-/
namespace Winpty.ConsoleInput
open Winpty.Unicode Winpty.InputMap Winpty.Spec

/-- The state with pending records delivered, and status requests forgotten. -/
def core (s : St) : St :=
  { s with
    dsrSent := false
    records := []
    out := (s.out ++ s.records.map Out.record).filter (· ≠ Out.dsr) }

/-- Equal up to flushing and status requests. -/
def R (s t : St) : Prop := core s = core t

theorem R.refl (s : St) : R s s := rfl
theorem R.symm {s t : St} (h : R s t) : R t s := Eq.symm h
theorem R.trans {s t u : St} (h : R s t) (h' : R t u) : R s u := Eq.trans h h'

theorem R_iff (s t : St) : R s t ↔
    s.mouseButtonState = t.mouseButtonState ∧ s.doubleClick = t.doubleClick ∧
    s.extendedEnabled = t.extendedEnabled ∧ s.mouseInputEnabled = t.mouseInputEnabled ∧
    s.quickEditEnabled = t.quickEditEnabled ∧ s.escapeInputEnabled = t.escapeInputEnabled ∧
    s.rect = t.rect ∧ (s.out ++ s.records.map Out.record).filter (· ≠ Out.dsr) =
      (t.out ++ t.records.map Out.record).filter (· ≠ Out.dsr) := by
  unfold R core
  simp only [St.mk.injEq, true_and]

theorem R_flush {s t : St} (h : R s t) : R (flushInputRecords s) t := by
  rw [R_iff] at h ⊢
  simpa [flushInputRecords] using h

theorem R_records {s t : St} (h : R s t) (rs : List Rec) :
    R { s with records := s.records ++ rs } { t with records := t.records ++ rs } := by
  rw [R_iff] at h ⊢
  obtain ⟨h1, h2, h3, h4, h5, h6, h7, h8⟩ := h
  refine ⟨h1, h2, h3, h4, h5, h6, h7, ?_⟩
  simp only [List.map_append]
  rw [← List.append_assoc, ← List.append_assoc,
    List.filter_append (s.out ++ s.records.map Out.record), List.filter_append (t.out ++ t.records.map Out.record), h8]

theorem R_flushOut {s t : St} (h : R s t) (o : List Out) :
    R { flushInputRecords s with out := (flushInputRecords s).out ++ o }
      { flushInputRecords t with out := (flushInputRecords t).out ++ o } := by
  rw [R_iff] at h ⊢
  obtain ⟨h1, h2, h3, h4, h5, h6, h7, h8⟩ := h
  refine ⟨h1, h2, h3, h4, h5, h6, h7, ?_⟩
  simp only [flushInputRecords, List.map_nil, List.append_nil]
  rw [List.filter_append (s.out ++ s.records.map Out.record),
    List.filter_append (t.out ++ t.records.map Out.record), h8]

theorem R_dsrSent {s t : St} (h : R s t) (b : Bool) : R { s with dsrSent := b } t := by
  rw [R_iff] at h ⊢; exact h

theorem R_sendDsr {s t : St} (h : R s t) (hs : s.records = []) :
    R { s with dsrSent := true, out := s.out ++ [.dsr] } t := by
  rw [R_iff] at h ⊢
  simpa [hs] using h

theorem R_escape {s t : St} (h : R s t) : s.escapeInputEnabled = t.escapeInputEnabled :=
  ((R_iff s t).1 h).2.2.2.2.2.1

theorem R_recIf {s t : St} (h : R s t) (c d : Bool) (vk k : Nat) : R (recIf c s d vk k) (recIf c t d vk k) := by
  unfold recIf
  split
  · exact R_records h _
  · exact h

theorem R_appendCP {s t : St} (h : R s t) (d : Bool) (vk c k : Nat) :
    R (appendCPInputRecords s d vk c k) (appendCPInputRecords t d vk c k) := R_records h _

theorem R_reencode {s t : St} (h : R s t) (vk c k : Nat) :
    R (reencodeEscapedKeyPress s vk c k) (reencodeEscapedKeyPress t vk c k) := R_records h _

theorem R_ite {c : Bool} {a b a' b' : St} (h1 : R a a') (h2 : R b b') :
    R (if c = true then a else b) (if c = true then a' else b') := by
  split
  · exact h1
  · exact h2

theorem R_keyPress {s t : St} (h : R s t) (vk dn up w c v : Nat) :
    R (appendKeyPress s vk dn up w c v) (appendKeyPress t vk dn up w c v) := by
  unfold appendKeyPress
  simp only
  rw [R_escape h]
  refine R_ite (R_flushOut h _) ?_
  apply R_recIf; apply R_recIf; apply R_recIf; apply R_recIf; apply R_appendCP
  have h4 := R_recIf (R_recIf (R_recIf (R_recIf h (has w LEFT_CTRL_PRESSED) true VK_CONTROL
    (orIf (has w LEFT_CTRL_PRESSED) 0 LEFT_CTRL_PRESSED)) (has w LEFT_ALT_PRESSED) true VK_MENU
    (orIf (has w LEFT_ALT_PRESSED) (orIf (has w LEFT_CTRL_PRESSED) 0 LEFT_CTRL_PRESSED) LEFT_ALT_PRESSED))
    (has w RIGHT_ALT_PRESSED) true VK_MENU
    (orIf (has w RIGHT_ALT_PRESSED) (orIf (has w LEFT_ALT_PRESSED)
      (orIf (has w LEFT_CTRL_PRESSED) 0 LEFT_CTRL_PRESSED) LEFT_ALT_PRESSED) RIGHT_ALT_PRESSED |||
      ENHANCED_KEY)) (has w SHIFT_PRESSED) true VK_SHIFT
    (orIf (has w SHIFT_PRESSED) (orIf (has w RIGHT_ALT_PRESSED) (orIf (has w LEFT_ALT_PRESSED)
      (orIf (has w LEFT_CTRL_PRESSED) 0 LEFT_CTRL_PRESSED) LEFT_ALT_PRESSED) RIGHT_ALT_PRESSED)
      SHIFT_PRESSED)
  rw [R_escape h4]
  exact R_ite (R_reencode h4 _ _ _) (R_appendCP h4 _ _ _ _)

theorem R_appendChar {s t : St} (h : R s t) (sys : Sys) (c : Nat) (alt : Bool) :
    R (appendChar sys s c alt) (appendChar sys t c alt) := R_keyPress h _ _ _ _ _ _

theorem R_appendMatch {s t : St} (h : R s t) (k : Key) : R (appendMatch s k) (appendMatch t k) :=
  R_keyPress h _ _ _ _ _ _

theorem R_push {s t : St} (h : R s t) (r : Rec) : R (pushMouse s r) (pushMouse t r) := by
  obtain ⟨_, _, _, h4, h5, _, _, _⟩ := (R_iff s t).1 h
  unfold pushMouse
  simp only [h4, h5]
  split
  · have h := R_records h [r]
    simp only [h4, h5] at h
    exact h
  · exact h

theorem R_handleMouse {s t : St} (h : R s t) (env : Env) (r : MouseRecord) :
    R (handleMouse env s r) (handleMouse env t r) := by
  obtain ⟨h1, h2, h3, h4, h5, h6, h7, h8⟩ := (R_iff s t).1 h
  unfold handleMouse
  simp only [h1, h2, h7]
  split
  · split
    · exact R_push h _
    · split
      · exact R_push h _
      · exact h
  · refine R_push ?_ _
    rw [R_iff]
    exact ⟨rfl, rfl, h3, h4, h5, h6, rfl, h8⟩

/-- The same outcome up to flushing and status requests. -/
def RS : Scan → Scan → Prop
  | .incomplete, .incomplete => True
  | .consumed n s, .consumed m t => n = m ∧ R s t
  | .bad, .bad => True
  | _, _ => False

theorem RS_utf8 {s t : St} (h : R s t) (sys : Sys) (p : List Nat) :
    RS (scanUtf8 sys s p) (scanUtf8 sys t p) := by
  cases p with
  | nil => trivial
  | cons b r =>
    simp only [scanUtf8]
    split
    · exact ⟨rfl, h⟩
    · split
      · trivial
      · unfold appendUtf8Char
        cases decodeUtf8 (b :: r) with
        | oob => trivial
        | invalid => exact ⟨rfl, h⟩
        | ok c => exact ⟨rfl, R_appendChar h _ _ _⟩

theorem RS_alt {s t : St} (h : R s t) (sys : Sys) (p : List Nat) :
    RS (scanAlt sys s p) (scanAlt sys t p) := by
  unfold scanAlt
  split
  · rename_i b r
    split
    · split
      · trivial
      · unfold appendUtf8Char
        cases decodeUtf8 (b :: r) with
        | oob => trivial
        | invalid => exact ⟨rfl, h⟩
        | ok c => exact ⟨rfl, R_appendChar h _ _ _⟩
    · exact RS_utf8 h sys _
  · exact RS_utf8 h sys _

theorem RS_map {s t : St} (h : R s t) (sys : Sys) (root : Node) (p : List Nat) (eof : Bool) :
    RS (scanMap sys root s p eof) (scanMap sys root t p eof) := by
  unfold scanMap
  split
  · trivial
  · split
    · exact ⟨rfl, R_appendMatch h _⟩
    · exact RS_alt h sys p

theorem RS_mouse {s t : St} (h : R s t) (sys : Sys) (root : Node) (env : Env) (p : List Nat) (eof : Bool) :
    RS (scanMouse sys root env s p eof) (scanMouse sys root env t p eof) := by
  unfold scanMouse
  cases matchMouseRecord p with
  | overRead => trivial
  | ok r rest => exact ⟨rfl, R_handleMouse h _ _⟩
  | incomplete => simp only; split; exact RS_map h sys root p eof; trivial
  | noMatch => exact RS_map h sys root p eof

theorem RS_scan {s t : St} (h : R s t) (sys : Sys) (root : Node) (env : Env) (p : List Nat) (eof : Bool) :
    RS (scanInput sys root env s p eof) (scanInput sys root env t p eof) := by
  cases p with
  | nil => trivial
  | cons b r =>
    simp only [scanInput]
    split
    · exact ⟨rfl, R_flushOut h _⟩
    · split
      · unfold scanEsc
        cases matchDsr (b :: r) with
        | overRead => trivial
        | ok a rest => exact ⟨rfl, R_dsrSent (R_dsrSent h.symm false).symm false⟩
        | incomplete => simp only; split; exact RS_mouse h sys root env _ eof; trivial
        | noMatch => exact RS_mouse h sys root env _ eof
      · exact RS_map h sys root _ eof

theorem R_loop {s t : St} (h : R s t) (sys : Sys) (root : Node) (env : Nat → Env) (eof : Bool)
    (fuel pos : Nat) (q : List Nat) {s' : St} {q' : List Nat}
    (e : scanLoop sys root env eof fuel pos s q = some (s', q')) :
    ∃ t', scanLoop sys root env eof fuel pos t q = some (t', q') ∧ R s' t' := by
  induction fuel generalizing pos s t q with
  | zero =>
    cases q with
    | nil => cases e; exact ⟨t, rfl, h⟩
    | cons b q => simp [scanLoop] at e
  | succ fuel ih =>
    cases q with
    | nil => cases e; exact ⟨t, rfl, h⟩
    | cons b q =>
      rw [scanLoop] at e ⊢
      have hr := RS_scan h sys root (env pos) (b :: q) eof
      cases h1 : scanInput sys root (env pos) s (b :: q) eof <;>
        cases h2 : scanInput sys root (env pos) t (b :: q) eof <;> simp only [h1, h2, RS] at hr
      · simp only [h1] at e
        cases e
        exact ⟨t, rfl, h⟩
      · obtain ⟨rfl, hr⟩ := hr
        simp only [h1] at e
        exact ih hr (pos + _) _ e
      · simp [h1] at e

/-! ## Writing -/

theorem flush_records (s : St) : (flushInputRecords s).records = [] := rfl

/-- The state after scanning a queue completely. -/
theorem doWrite_total (sys : Sys) (root : Node) (env : Nat → Env) (eof : Bool) (pos : Nat) (s : St)
    (q : List Nat) : ∃ s' c q', doWrite sys root env eof pos s q = some (flushInputRecords s', q') ∧
      scanLoop sys root env eof q.length pos s q = some (s', q') ∧ q = c ++ q' ∧
      (q' = [] ∨ scanInput sys root (env (pos + c.length)) s' q' eof = .incomplete) := by
  obtain ⟨s', c, q', e1, e2, e3⟩ := scanLoop_total sys root env eof q.length pos s q (Nat.le_refl _)
  exact ⟨s', c, q', by simp [doWrite, e1], e1, e2, e3⟩

/-- `writeInput` on a non-empty chunk in terms of the loop. -/
theorem writeInput_spec (sys : Sys) (root : Node) (env : Nat → Env) (now : Nat) (o : Obj) (input : List Nat)
    (h : input ≠ []) : ∃ s' q' o', writeInput sys root env now o input = some o' ∧
      scanLoop sys root env false (o.queue ++ input).length o.pos o.st (o.queue ++ input) = some (s', q') ∧
      R o'.st s' ∧ o'.queue = q' ∧ o'.pos = o.pos + ((o.queue ++ input).length - q'.length) ∧
      o'.mouseMode = o.mouseMode ∧ o'.st.records = [] := by
  obtain ⟨s', c, q', e1, e2, _, _⟩ := doWrite_total sys root env false o.pos o.st (o.queue ++ input)
  have hl : ¬ input.length = 0 := by simpa using h
  simp only [writeInput, hl, ↓reduceIte, e1]
  split
  · exact ⟨s', q', _, rfl, e2, R_sendDsr (R_flush (R.refl s')) rfl, rfl, rfl, rfl, rfl⟩
  · exact ⟨s', q', _, rfl, e2, R_flush (R.refl s'), rfl, rfl, rfl, rfl⟩

end Winpty.ConsoleInput
