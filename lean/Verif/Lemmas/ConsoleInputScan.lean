import Verif.Lemmas.ConsoleInput
/-!
# Lemmas about input scanning: progress, prefix stability, the loop
-/
namespace Winpty.ConsoleInput
open Winpty.Unicode Winpty.InputMap Winpty.Spec

theorem lookupLoop_len (n : Node) (i bl : Nat) (bk : Key) (p : List Nat) (h : bl ≤ i) :
    (lookupLoop n i bl bk p).len ≤ i + p.length := by
  induction p generalizing n i bl bk with
  | nil => simp [lookupLoop]; omega
  | cons c p ih =>
    rw [lookupLoop]
    cases hc : getChild n c with
    | none => simp; omega
    | some m =>
      simp only
      split
      · have := ih m (i + 1) (i + 1) m.key (by omega); simp; omega
      · have := ih m (i + 1) bl bk (by omega); simp; omega

theorem lookupKey_len (root : Node) (p : List Nat) : (lookupKey root p).len ≤ p.length := by
  have := lookupLoop_len root 0 0 {} p (by omega)
  simpa [lookupKey] using this

theorem lookupLoop_stable (n : Node) (hn : WF n) (i bl : Nat) (bk : Key) (p q : List Nat)
    (h : (lookupLoop n i bl bk p).incomplete = false) :
    lookupLoop n i bl bk (p ++ q) = lookupLoop n i bl bk p := by
  induction p generalizing n i bl bk with
  | nil =>
    simp only [lookupLoop, decide_eq_false_iff_not] at h
    cases q with
    | nil => rfl
    | cons c q =>
      have hc : getChild n c = none := by
        cases hc : getChild n c with
        | none => rfl
        | some m => exact absurd ((childCount_pos hn).2 ⟨c, m, hc⟩) h
      simp [lookupLoop, hc, h]
  | cons c p ih =>
    rw [List.cons_append, lookupLoop, lookupLoop]
    rw [lookupLoop] at h
    cases hc : getChild n c with
    | none => rfl
    | some m =>
      simp only [hc] at h ⊢
      split
      · rename_i hk; rw [if_pos hk] at h; exact ih m (getChild_wf hn hc) _ _ _ h
      · rename_i hk; rw [if_neg hk] at h; exact ih m (getChild_wf hn hc) _ _ _ h

theorem lookupKey_stable {root : Node} (hn : WF root) (p q : List Nat)
    (h : (lookupKey root p).incomplete = false) : lookupKey root (p ++ q) = lookupKey root p :=
  lookupLoop_stable root hn 0 0 {} p q h

theorem decode_stable (p q : List Nat) (h : decodeUtf8 p ≠ .oob) : decodeUtf8 (p ++ q) = decodeUtf8 p := by
  cases p with
  | nil => exact absurd rfl h
  | cons b p =>
    rw [List.cons_append]
    have hl := utf8CharLength_le b
    have : utf8CharLength b = 0 ∨ utf8CharLength b = 1 ∨ utf8CharLength b = 2 ∨ utf8CharLength b = 3 ∨
        utf8CharLength b = 4 := by omega
    rcases this with e | e | e | e | e <;> simp only [decodeUtf8, e] at h ⊢
    · cases p with
      | nil => exact absurd rfl h
      | cons b1 p => rfl
    · rcases p with _ | ⟨b1, _ | ⟨b2, p⟩⟩
      · exact absurd rfl h
      · exact absurd rfl h
      · rfl
    · rcases p with _ | ⟨b1, _ | ⟨b2, _ | ⟨b3, p⟩⟩⟩
      · exact absurd rfl h
      · exact absurd rfl h
      · exact absurd rfl h
      · rfl

theorem decode_fits {b : Nat} {t : List Nat} (h : utf8CharLength b ≤ (b :: t).length) :
    decodeUtf8 (b :: t) ≠ .oob := by
  intro e
  rcases decode_oob _ e with h1 | ⟨b', t', h1, h2⟩
  · cases h1
  · cases h1; omega

theorem append_fits {sys : Sys} {s : St} {b : Nat} {t : List Nat} {alt : Bool}
    (h : utf8CharLength b ≤ (b :: t).length) : ∃ s', appendUtf8Char sys s (b :: t) alt = some s' := by
  have := decode_fits h
  unfold appendUtf8Char
  cases hd : decodeUtf8 (b :: t) with
  | oob => exact absurd hd this
  | invalid => exact ⟨s, rfl⟩
  | ok c => exact ⟨_, rfl⟩

theorem append_stable {sys : Sys} {s : St} {b : Nat} {t : List Nat} {alt : Bool} (q : List Nat)
    (h : utf8CharLength b ≤ (b :: t).length) :
    appendUtf8Char sys s (b :: t ++ q) alt = appendUtf8Char sys s (b :: t) alt := by
  unfold appendUtf8Char
  rw [decode_stable _ q (decode_fits h)]

/-- A step makes progress within the input, or asks for more. -/
def Progress (input : List Nat) (r : Scan) : Prop :=
  r = .incomplete ∨ ∃ n s, r = .consumed n s ∧ 0 < n ∧ n ≤ input.length

theorem scanUtf8_progress (sys : Sys) (s : St) (input : List Nat) (h : input ≠ []) :
    Progress input (scanUtf8 sys s input) := by
  cases input with
  | nil => exact absurd rfl h
  | cons b t =>
    simp only [scanUtf8]
    split
    · exact .inr ⟨1, s, rfl, by omega, by simp⟩
    · split
      · exact .inl rfl
      · rename_i h1 h2
        obtain ⟨s', e⟩ := append_fits (sys := sys) (s := s) (alt := false) (Nat.le_of_not_lt h2)
        simp only [e]
        exact .inr ⟨_, s', rfl, by omega, by omega⟩

theorem scanAlt_progress (sys : Sys) (s : St) (input : List Nat) (h : input ≠ []) :
    Progress input (scanAlt sys s input) := by
  unfold scanAlt
  split
  · rename_i b r
    split
    · split
      · exact .inl rfl
      · rename_i h1 h2
        obtain ⟨s', e⟩ := append_fits (sys := sys) (s := s) (alt := true) (b := b) (t := r)
          (by simp at h2 ⊢; omega)
        simp only [e]
        exact .inr ⟨_, s', rfl, by omega, by omega⟩
    · exact scanUtf8_progress sys s _ h
  · exact scanUtf8_progress sys s _ h

theorem scanMap_progress (sys : Sys) (root : Node) (s : St) (input : List Nat) (eof : Bool)
    (h : input ≠ []) : Progress input (scanMap sys root s input eof) := by
  unfold scanMap
  split
  · exact .inl rfl
  · split
    · exact .inr ⟨_, _, rfl, by assumption, lookupKey_len root input⟩
    · exact scanAlt_progress sys s input h

theorem ok_len {α : Type} {m : List Nat → MRes α} (g : Good false m) {p : List Nat} {a : α} {r : List Nat}
    (h : m p = .ok a r) : 0 < p.length - r.length ∧ p.length - r.length ≤ p.length := by
  obtain ⟨c, hc, e⟩ := g.suffix p a r h
  have : 0 < c.length := List.length_pos_iff.2 hc
  rw [e, List.length_append]; omega

theorem scanMouse_progress (sys : Sys) (root : Node) (env : Env) (s : St) (input : List Nat) (eof : Bool)
    (h : input ≠ []) : Progress input (scanMouse sys root env s input eof) := by
  have hs := good_matchMouseRecord.safe input h
  unfold scanMouse
  cases hm : matchMouseRecord input with
  | overRead => exact absurd hm hs
  | ok r rest =>
    have := ok_len good_matchMouseRecord hm
    exact .inr ⟨_, _, rfl, this.1, this.2⟩
  | incomplete =>
    simp only; split
    · exact scanMap_progress sys root s input eof h
    · exact .inl rfl
  | noMatch => exact scanMap_progress sys root s input eof h

theorem scanEsc_progress (sys : Sys) (root : Node) (env : Env) (s : St) (input : List Nat) (eof : Bool)
    (h : input ≠ []) : Progress input (scanEsc sys root env s input eof) := by
  have hs := good_matchDsr.safe input h
  unfold scanEsc
  cases hm : matchDsr input with
  | overRead => exact absurd hm hs
  | ok r rest =>
    have := ok_len good_matchDsr hm
    exact .inr ⟨_, _, rfl, this.1, this.2⟩
  | incomplete =>
    simp only; split
    · exact scanMouse_progress sys root env s input eof h
    · exact .inl rfl
  | noMatch => exact scanMouse_progress sys root env s input eof h

theorem scanInput_progress (sys : Sys) (root : Node) (env : Env) (s : St) (input : List Nat) (eof : Bool)
    (h : input ≠ []) : Progress input (scanInput sys root env s input eof) := by
  cases input with
  | nil => exact absurd rfl h
  | cons b t =>
    simp only [scanInput]
    split
    · exact .inr ⟨1, _, rfl, by omega, by simp⟩
    · split
      · exact scanEsc_progress sys root env s _ eof h
      · exact scanMap_progress sys root s _ eof h

/-! ## Appending input does not change a step that was taken -/

theorem scanUtf8_stable {sys : Sys} {s s' : St} {p : List Nat} {n : Nat} (q : List Nat)
    (h : scanUtf8 sys s p = .consumed n s') : scanUtf8 sys s (p ++ q) = .consumed n s' := by
  cases p with
  | nil => simp [scanUtf8] at h
  | cons b t =>
    simp only [scanUtf8, List.cons_append] at h ⊢
    split at h
    · rename_i h1; rw [if_pos h1]; exact h
    · rename_i h1; rw [if_neg h1]
      split at h
      · cases h
      · rename_i h2
        rw [if_neg (by simp at h2 ⊢; omega), ← List.cons_append, append_stable q (by omega)]
        exact h

theorem scanAlt_stable {sys : Sys} {s s' : St} {p : List Nat} {n : Nat} (q : List Nat)
    (hp : p ≠ [0x1B]) (h : scanAlt sys s p = .consumed n s') :
    scanAlt sys s (p ++ q) = .consumed n s' := by
  unfold scanAlt at h
  split at h
  · rename_i b r
    simp only [scanAlt, List.cons_append]
    split at h
    · rename_i h1
      rw [if_pos h1]
      split at h
      · cases h
      · rename_i h2
        rw [if_neg (by simp at h2 ⊢; omega), ← List.cons_append,
          append_stable q (by simp at h2 ⊢; omega)]
        exact h
    · rename_i h1
      rw [if_neg h1]
      exact scanUtf8_stable q h
  · rename_i hne
    have : scanAlt sys s (p ++ q) = scanUtf8 sys s (p ++ q) := by
      cases p with
      | nil => simp [scanUtf8] at h
      | cons b t =>
        cases t with
        | nil =>
          unfold scanAlt
          split
          · rename_i heq
            simp only [List.cons_append, List.cons.injEq] at heq
            exact absurd (by rw [heq.1]) hp
          · rfl
        | cons c t =>
          unfold scanAlt
          split
          · rename_i heq
            simp only [List.cons_append, List.cons.injEq] at heq
            exact absurd (by rw [heq.1]) (hne c t)
          · rfl
    rw [this]; exact scanUtf8_stable q h

theorem scanMap_stable {sys : Sys} {root : Node} (hn : WF root) {s s' : St} {p : List Nat} {n : Nat}
    (q : List Nat) (hp : p ≠ [0x1B]) (h : scanMap sys root s p false = .consumed n s') :
    scanMap sys root s (p ++ q) false = .consumed n s' := by
  unfold scanMap at h ⊢
  cases hi : (lookupKey root p).incomplete with
  | true => simp [hi] at h
  | false =>
    rw [lookupKey_stable hn p q hi]
    simp only [hi, Bool.and_false, Bool.false_eq_true, ↓reduceIte] at h ⊢
    split at h
    · rename_i h1; rw [if_pos h1]; exact h
    · rename_i h1; rw [if_neg h1]; exact scanAlt_stable q hp h

theorem ok_diff (p r q : List Nat) : (p ++ q).length - (r ++ q).length = p.length - r.length := by
  simp only [List.length_append]; omega

theorem scanMouse_stable {sys : Sys} {root : Node} (hn : WF root) {env : Env} {s s' : St} {p : List Nat}
    {n : Nat} (q : List Nat) (h0 : p ≠ []) (hp : p ≠ [0x1B])
    (h : scanMouse sys root env s p false = .consumed n s') :
    scanMouse sys root env s (p ++ q) false = .consumed n s' := by
  unfold scanMouse at h ⊢
  cases hm : matchMouseRecord p with
  | overRead => simp [hm] at h
  | incomplete => simp [hm] at h
  | ok r rest =>
    simp only [hm] at h
    simp only [good_matchMouseRecord.okStable p q r rest hm]
    rw [ok_diff]; exact h
  | noMatch =>
    simp only [hm] at h
    simp only [good_matchMouseRecord.noStable p q h0 hm]
    exact scanMap_stable hn q hp h

theorem scanInput_stable {sys : Sys} {root : Node} (hn : WF root) {env : Env} {s s' : St} {p : List Nat}
    {n : Nat} (q : List Nat) (h : scanInput sys root env s p false = .consumed n s') :
    scanInput sys root env s (p ++ q) false = .consumed n s' := by
  cases p with
  | nil => simp [scanInput] at h
  | cons b t =>
    simp only [scanInput, List.cons_append] at h ⊢
    split at h
    · rename_i h1; rw [if_pos h1]; exact h
    · rename_i h1; rw [if_neg h1]
      split at h
      · rename_i h2
        rw [if_pos h2, ← List.cons_append]
        have hp : b :: t ≠ [0x1B] := by
          intro e
          rw [e] at h
          simp [scanEsc, matchDsr, expect, MRes.bind] at h
        unfold scanEsc at h ⊢
        cases hm : matchDsr (b :: t) with
        | overRead => simp [hm] at h
        | incomplete => simp [hm] at h
        | ok r rest =>
          simp only [hm] at h
          simp only [good_matchDsr.okStable _ q r rest hm]
          rw [ok_diff]; exact h
        | noMatch =>
          simp only [hm] at h
          simp only [good_matchDsr.noStable _ q (by simp) hm]
          exact scanMouse_stable hn q (by simp) hp h
      · rename_i h2
        rw [if_neg h2, ← List.cons_append]
        exact scanMap_stable hn q (by intro e; cases e; exact h2 rfl) h

/-! ## The loop -/

/-- With enough fuel the loop ends; what it leaves is a suffix on which scanning asks for more. -/
theorem scanLoop_total (sys : Sys) (root : Node) (env : Nat → Env) (eof : Bool) (fuel pos : Nat) (s : St)
    (q : List Nat) (h : q.length ≤ fuel) : ∃ s' c q', scanLoop sys root env eof fuel pos s q = some (s', q') ∧
      q = c ++ q' ∧
      (q' = [] ∨ scanInput sys root (env (pos + c.length)) s' q' eof = .incomplete) := by
  induction fuel generalizing pos s q with
  | zero =>
    cases q with
    | nil => exact ⟨s, [], [], rfl, rfl, .inl rfl⟩
    | cons b q => simp at h
  | succ fuel ih =>
    cases q with
    | nil => exact ⟨s, [], [], rfl, rfl, .inl rfl⟩
    | cons b q =>
      rw [scanLoop]
      rcases scanInput_progress sys root (env pos) s (b :: q) eof (by simp) with e | ⟨n, s1, e, h1, h2⟩
      · rw [e]
        exact ⟨s, [], b :: q, rfl, rfl, .inr (by simpa using e)⟩
      · rw [e]
        obtain ⟨s', c, q', e1, e2, e3⟩ := ih (pos + n) s1 ((b :: q).drop n)
          (by rw [List.length_drop]; omega)
        refine ⟨s', (b :: q).take n ++ c, q', e1, ?_, ?_⟩
        · rw [List.append_assoc, ← e2, List.take_append_drop]
        · have : pos + ((b :: q).take n ++ c).length = pos + n + c.length := by
            rw [List.length_append, List.length_take, Nat.min_eq_left h2]; omega
          rw [this]; exact e3

theorem scanLoop_fuel (sys : Sys) (root : Node) (env : Nat → Env) (eof : Bool) (fuel fuel' pos : Nat) (s : St)
    (q : List Nat) (h : q.length ≤ fuel) (h' : q.length ≤ fuel') :
    scanLoop sys root env eof fuel pos s q = scanLoop sys root env eof fuel' pos s q := by
  induction fuel generalizing fuel' pos s q with
  | zero =>
    cases q with
    | nil => cases fuel' <;> rfl
    | cons b q => simp at h
  | succ fuel ih =>
    cases q with
    | nil => cases fuel' <;> rfl
    | cons b q =>
      cases fuel' with
      | zero => simp at h'
      | succ fuel' =>
        rw [scanLoop, scanLoop]
        rcases scanInput_progress sys root (env pos) s (b :: q) eof (by simp) with e | ⟨n, s1, e, h1, h2⟩
        · rw [e]
        · rw [e]
          exact ih fuel' (pos + n) s1 _ (by rw [List.length_drop]; omega) (by rw [List.length_drop]; omega)

/-- Scanning `p` and then the rest with more input is scanning everything. -/
theorem scanLoop_append {sys : Sys} {root : Node} (hn : WF root) (env : Nat → Env) (fuel pos : Nat) (s : St)
    (p q : List Nat) (h : (p ++ q).length ≤ fuel) {s' : St} {p' : List Nat}
    (hp : scanLoop sys root env false fuel pos s p = some (s', p')) :
    scanLoop sys root env false fuel pos s (p ++ q) =
      scanLoop sys root env false fuel (pos + (p.length - p'.length)) s' (p' ++ q) := by
  induction fuel generalizing pos s p with
  | zero =>
    have : p = [] := List.length_eq_zero_iff.1 (by simp at h; simp [h])
    subst this
    cases hp
    simp
  | succ fuel ih =>
    cases p with
    | nil => cases hp; simp
    | cons b p =>
      rw [scanLoop] at hp
      rcases scanInput_progress sys root (env pos) s (b :: p) false (by simp) with e | ⟨n, s1, e, h1, h2⟩
      · rw [e] at hp
        cases hp
        simp
      · rw [e] at hp
        have e' := scanInput_stable hn q e
        have hd : (b :: p ++ q).drop n = (b :: p).drop n ++ q := List.drop_append_of_le_length h2
        have hlen : ((b :: p).drop n).length = (b :: p).length - n := List.length_drop
        simp only at hp
        obtain ⟨_, c, q2, e1, e2, _⟩ := scanLoop_total sys root env false fuel (pos + n) s1
          ((b :: p).drop n) (by rw [hlen]; simp at h ⊢; omega)
        rw [hp] at e1
        cases e1
        have hc := congrArg List.length e2
        rw [List.length_append, hlen] at hc
        rw [List.cons_append, scanLoop, ← List.cons_append, e']
        have hfit : ((b :: p).drop n ++ q).length ≤ fuel := by
          rw [List.length_append, hlen]; simp at h ⊢; omega
        simp only
        rw [hd, ih (pos + n) s1 ((b :: p).drop n) hfit hp]
        have hpos : pos + n + (((b :: p).drop n).length - p'.length) =
            pos + ((b :: p).length - p'.length) := by rw [hlen]; omega
        rw [hpos]
        apply scanLoop_fuel
        · rw [List.length_append]; rw [List.length_append] at hfit; omega
        · rw [List.length_append]; rw [List.length_append] at hfit; omega

end Winpty.ConsoleInput
