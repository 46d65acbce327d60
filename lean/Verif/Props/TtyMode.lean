import Verif.Spec.TtyMode

/-!
# C65: the user's terminal is put into raw mode and put back
-/
namespace Winpty.Props

open Winpty.TtyMode Winpty.Spec.TtyMode

theorem tty_get {env : Env} {w w' : World} {i : Nat} {m : Termios}
    (h : tcgetattr env w i = .ok m w') :
    w'.mode = w.mode ∧ ∃ t, env.tty i = some t ∧ m = w.mode t := by
  unfold tcgetattr at h
  split at h
  · cases h
  · rename_i t ht
    split at h
    · cases h
    · cases h; exact ⟨rfl, t, ht, rfl⟩

theorem tty_set {env : Env} {w w' : World} {i : Nat} {m : Termios} {u : Unit}
    (h : tcsetattr env w i m = .ok u w') :
    ∃ t, env.tty i = some t ∧ w'.mode = put w.mode t m := by
  unfold tcsetattr at h
  split at h
  · cases h
  · rename_i t ht
    split at h
    · cases h
    · cases h; exact ⟨t, ht, rfl⟩

theorem tty_change {env : Env} {f : Termios → Termios} {w w' : World} {i : Nat} {u : Unit}
    (h : change env f i w = .ok u w') :
    ∃ t, env.tty i = some t ∧ w'.mode = put w.mode t (f (w.mode t)) := by
  unfold change at h
  split at h
  · cases h
  · rename_i m w1 h1
    obtain ⟨e1, t, ht, rfl⟩ := tty_get h1
    obtain ⟨t', ht', e2⟩ := tty_set h
    rw [ht] at ht'; cases ht'
    exact ⟨t, ht, by rw [e2, e1]⟩

theorem tty_save {env : Env} {allow : Bool} {ret ret' : Saved} {i : Nat} {w w' : World}
    (h : save env allow ret i w = .ok ret' w') :
    w'.mode = w.mode ∧
      (∀ j, ret'.valid j = if j = i then ret.valid i && (env.tty i).isSome else ret.valid j) ∧
      (∀ j, j ≠ i → ret'.mode j = ret.mode j) ∧
      (∀ t, ret.valid i = true → env.tty i = some t → ret'.mode i = w.mode t) := by
  unfold save at h
  split at h
  · rename_i hv
    cases h
    refine ⟨rfl, fun j => ?_, fun j _ => rfl, fun t ht => ?_⟩
    · split
      · rename_i e; subst e; simp at hv; simp [hv]
      · rfl
    · simp [ht] at hv
  · rename_i hv
    simp at hv
    split at h
    · rename_i hn
      split at h
      · cases h
      · cases h
        refine ⟨rfl, fun j => ?_, fun j _ => rfl, fun t _ ht => by simp [ht] at hn⟩
        simp only [put]
        split
        · simp only [hv, Bool.true_and]
          cases h : env.tty i <;> simp [h] at hn ⊢
        · rfl
    · rename_i hn
      split at h
      · cases h
      · rename_i m w1 h1
        cases h
        obtain ⟨e1, t, ht, rfl⟩ := tty_get h1
        refine ⟨e1, fun j => ?_, fun j hj => by simp [put, hj], fun t' _ ht' => ?_⟩
        · simp only [put]
          split
          · simp [hv, ht]
          · rfl
        · rw [ht] at ht'; cases ht'
          simp [put]

/-- What is saved. -/
theorem tty_saved {env : Env} {allow so se : Bool} {g : Nat → Termios} {ret : Saved} {w w' : World}
    (h : saveAll env allow [0, 1, 2]
      ⟨fun i => if i = 0 then true else if i = 1 then so else se, g⟩ w = .ok ret w') :
    w'.mode = w.mode ∧ (∀ i, i < 3 → (ret.valid i = true ↔ used so se i ∧ (env.tty i).isSome)) ∧
      (∀ i t, i < 3 → used so se i → env.tty i = some t → ret.mode i = w.mode t) := by
  simp only [saveAll] at h
  split at h
  · cases h
  · rename_i r1 w1 h1
    split at h
    · cases h
    · rename_i r2 w2 h2
      split at h
      · cases h
      · rename_i r3 w3 h3
        cases h
        obtain ⟨a1, a2, a3, a4⟩ := tty_save h1
        obtain ⟨b1, b2, b3, b4⟩ := tty_save h2
        obtain ⟨c1, c2, c3, c4⟩ := tty_save h3
        refine ⟨by rw [c1, b1, a1], ?_, ?_⟩
        · intro i hi
          have : i = 0 ∨ i = 1 ∨ i = 2 := by omega
          rcases this with rfl | rfl | rfl <;> simp [c2, b2, a2, used]
        · intro i t hi hu ht
          have : i = 0 ∨ i = 1 ∨ i = 2 := by omega
          rcases this with rfl | rfl | rfl
          · rw [c3 0 (by omega), b3 0 (by omega), a4 t rfl ht]
          · rw [c3 1 (by omega), b4 t ?_ ht, a1]
            simpa [a2, used] using hu
          · rw [c4 t ?_ ht, b1, a1]
            simpa [a2, b2, used] using hu

theorem restore_spec {env : Env} {saved : Saved} (orig : Nat → Termios) (is : List Nat) {w w' : World}
    {u : Unit} (hs : ∀ i ∈ is, ∀ t, saved.valid i = true → env.tty i = some t → saved.mode i = orig t)
    (h : restoreAll env saved is w = .ok u w') (t : Nat) :
    ((∃ i ∈ is, saved.valid i = true ∧ env.tty i = some t) → w'.mode t = orig t) ∧
    ((∀ i ∈ is, saved.valid i = true → env.tty i ≠ some t) → w'.mode t = w.mode t) := by
  induction is generalizing w with
  | nil => simp only [restoreAll] at h; cases h; simp
  | cons i is ih =>
    simp only [restoreAll] at h
    split at h
    · rename_i hv
      simp at hv
      obtain ⟨i1, i2⟩ := ih (fun j hj => hs j (List.mem_cons_of_mem _ hj)) h
      refine ⟨?_, fun h2 => i2 fun j hj => h2 j (List.mem_cons_of_mem _ hj)⟩
      rintro ⟨j, hj, hj1, hj2⟩
      rcases List.mem_cons.1 hj with rfl | hj
      · simp [hv] at hj1
      · exact i1 ⟨j, hj, hj1, hj2⟩
    · rename_i hv
      simp at hv
      split at h
      · cases h
      · rename_i u1 w1 h1
        obtain ⟨t1, ht1, e1⟩ := tty_set h1
        obtain ⟨i1, i2⟩ := ih (fun j hj => hs j (List.mem_cons_of_mem _ hj)) h
        have hm := hs i (by simp) t1 hv ht1
        constructor
        · intro hex
          by_cases hin : ∃ j ∈ is, saved.valid j = true ∧ env.tty j = some t
          · exact i1 hin
          · rw [i2 (fun j hj hv ht => hin ⟨j, hj, hv, ht⟩), e1]
            obtain ⟨j, hj, hj1, hj2⟩ := hex
            rcases List.mem_cons.1 hj with rfl | hj
            · rw [ht1] at hj2; cases hj2; simp [put, hm]
            · exact absurd ⟨j, hj, hj1, hj2⟩ hin
        · intro hno
          rw [i2 (fun j hj => hno j (List.mem_cons_of_mem _ hj)), e1]
          have : t ≠ t1 := fun e => hno i (by simp) hv (e ▸ ht1)
          simp [put, this]

/-- C65.  When the adapter has put the terminals it uses into raw mode and later restores them, each
has exactly the mode it had before the adapter changed it, whatever happened to it in between (`w₂` is
arbitrary), however many of the three standard streams are connected to the same terminal.  No other
terminal is affected by the restoring. -/
theorem C65_restored (env : Env) (allow so se : Bool) (g : Nat → Termios) (w w₁ : World) (saved : Saved)
    (h : setRawTerminalMode env allow so se g w = .ok saved w₁) (w₂ w₃ : World) (u : Unit)
    (h' : restoreTerminalMode env saved w₂ = .ok u w₃) (t : Nat) :
    (inputTty env t ∨ outputTty env so se t → w₃.mode t = w.mode t) ∧
    (¬ inputTty env t → ¬ outputTty env so se t → w₃.mode t = w₂.mode t) := by
  unfold setRawTerminalMode at h
  split at h
  · cases h
  · rename_i ret wa ha
    obtain ⟨a1, a2, a3⟩ := tty_saved ha
    have e : ret = saved := by
      repeat' split at h
      all_goals first | cases h; done | (cases h; rfl)
    subst e
    have hv : ∀ i, i < 3 → (ret.valid i = true ↔ used so se i ∧ (env.tty i).isSome) := a2
    obtain ⟨r1, r2⟩ := restore_spec (saved := ret) w.mode [0, 1, 2] (fun i hi t hv' ht =>
      a3 i t (by simp at hi; omega) ((a2 i (by simp at hi; omega)).1 hv').1 ht) h' t
    constructor
    · intro hio
      apply r1
      rcases hio with hio | ⟨hs, hio⟩ | ⟨hs, hio⟩
      · exact ⟨0, by simp, (hv 0 (by omega)).2 ⟨by simp [used], by rw [hio]; rfl⟩, hio⟩
      · exact ⟨1, by simp, (hv 1 (by omega)).2 ⟨by simp [used, hs], by rw [hio]; rfl⟩, hio⟩
      · exact ⟨2, by simp, (hv 2 (by omega)).2 ⟨by simp [used, hs], by rw [hio]; rfl⟩, hio⟩
    · intro hi ho
      apply r2
      intro i hm hvi ht
      have hu := ((hv i (by simp at hm; omega)).1 hvi).1
      rcases hu with rfl | ⟨rfl, hs⟩ | ⟨rfl, hs⟩
      · exact hi ht
      · exact ho (.inl ⟨hs, ht⟩)
      · exact ho (.inr ⟨hs, ht⟩)

/-- The modes after `setRawTerminalMode`. -/
theorem raw_modes {env : Env} {allow so se : Bool} {g : Nat → Termios} {w w₁ : World} {saved : Saved}
    (h : setRawTerminalMode env allow so se g w = .ok saved w₁) (t : Nat) :
    ∃ a b c : Bool, (a = true ↔ inputTty env t) ∧ (b = true ↔ so = true ∧ env.tty 1 = some t) ∧
      (c = true ↔ se = true ∧ env.tty 2 = some t) ∧
      w₁.mode t = (if c then rawOutput else id) ((if b then rawOutput else id)
        ((if a then rawInput else id) (w.mode t))) := by
  unfold setRawTerminalMode at h
  split at h
  · cases h
  · rename_i ret wa ha
    obtain ⟨a1, a2, a3⟩ := tty_saved ha
    split at h
    · cases h
    · rename_i u wb hb
      split at h
      · cases h
      · rename_i u2 wc hc
        obtain ⟨rfl, rfl⟩ : ret = saved ∧ wc = w₁ := by cases h; exact ⟨rfl, rfl⟩
        refine ⟨decide (env.tty 0 = some t), decide (so = true ∧ env.tty 1 = some t),
          decide (se = true ∧ env.tty 2 = some t), by simp [inputTty], by simp, by simp, ?_⟩
        have v0 := a2 0 (by omega)
        have v1 := a2 1 (by omega)
        have v2 := a2 2 (by omega)
        simp [used] at v0 v1 v2
        have e0 : wb.mode t = (if decide (env.tty 0 = some t) then rawInput else id) (w.mode t) := by
          split at hb
          · obtain ⟨t1, ht1, e⟩ := tty_change hb
            rw [e, a1]
            by_cases ht : t = t1
            · subst ht; simp [put, ht1]
            · have : t1 ≠ t := fun e => ht e.symm
              simp [put, ht, ht1, this]
          · rename_i hv
            cases hb
            have : env.tty 0 = none := by
              cases h0 : env.tty 0 with
              | none => rfl
              | some x => exact absurd (by simp [v0, h0]) hv
            simp [this, a1]
        have step : ∀ (i : Nat) (flag : Bool) (wx wy : World),
            (ret.valid i = true ↔ flag = true ∧ (env.tty i).isSome = true) →
            ((ret.valid i = true ∧ ∃ u, change env rawOutput i wx = .ok u wy) ∨
              (ret.valid i = false ∧ wy = wx)) →
            wy.mode t = (if decide (flag = true ∧ env.tty i = some t) then rawOutput else id)
              (wx.mode t) := by
          intro i flag wx wy hv hor
          rcases hor with ⟨hvi, u, hch⟩ | ⟨hvi, rfl⟩
          · obtain ⟨t1, ht1, e⟩ := tty_change hch
            have hf := (hv.1 hvi).1
            rw [e]
            by_cases ht : t = t1
            · subst ht; simp [put, ht1, hf]
            · have : t1 ≠ t := fun e => ht e.symm
              simp [put, ht, ht1, this]
          · have : ¬ (flag = true ∧ env.tty i = some t) := by
              rintro ⟨h1, h2⟩
              have := hv.2 ⟨h1, by rw [h2]; rfl⟩
              rw [hvi] at this; cases this
            simp [this]
        simp only [changeOutputs] at hc
        have s1 : ∃ wd, ((ret.valid 1 = true ∧ ∃ u, change env rawOutput 1 wb = .ok u wd) ∨
            (ret.valid 1 = false ∧ wd = wb)) ∧ ((ret.valid 2 = true ∧
            ∃ u, change env rawOutput 2 wd = .ok u wc) ∨ (ret.valid 2 = false ∧ wc = wd)) := by
          repeat' split at hc
          all_goals first
            | (cases hc; done)
            | (cases hc; simp_all)
        obtain ⟨wd, p1, p2⟩ := s1
        rw [step 2 se wd wc (by simpa using v2) p2, step 1 so wb wd (by simpa using v1) p1, e0]

/-- C65.  After the terminals have been put into raw mode: the input terminal passes on every key at
once and unchanged, an output terminal passes on every byte unchanged; nothing else about them is
changed, and no other terminal is changed. -/
theorem C65_raw (env : Env) (allow so se : Bool) (g : Nat → Termios) (w w₁ : World) (saved : Saved)
    (h : setRawTerminalMode env allow so se g w = .ok saved w₁) (t : Nat) :
    (inputTty env t → KeysUnchanged (w₁.mode t)) ∧
    (outputTty env so se t → OutputUnchanged (w₁.mode t)) ∧
    (¬ inputTty env t → SameKeys (w.mode t) (w₁.mode t)) ∧
    (¬ outputTty env so se t → (w₁.mode t).opost = (w.mode t).opost) ∧
    (¬ inputTty env t → ¬ outputTty env so se t → w₁.mode t = w.mode t) ∧
    (w₁.mode t).other = (w.mode t).other := by
  obtain ⟨a, b, c, ha, hb, hc, e⟩ := raw_modes h t
  have ho : outputTty env so se t ↔ b = true ∨ c = true := by rw [hb, hc]; rfl
  rw [e, ← ha, ho]
  cases a <;> cases b <;> cases c <;> simp only [if_true, if_false, id, Bool.false_eq_true] <;>
    refine ⟨?_, ?_, ?_, ?_, ?_, ?_⟩ <;> intros <;>
    first
      | rfl
      | (simp_all; done)
      | exact ⟨rfl, rfl, rfl, rfl, rfl, rfl, ⟨rfl, rfl⟩, ⟨rfl, rfl⟩, rfl, ⟨rfl, rfl⟩⟩
      | exact ⟨rfl, rfl, rfl⟩
      | exact ⟨rfl, rfl, rfl, rfl, rfl, rfl, rfl, rfl, rfl, rfl, rfl⟩

theorem save_exit {env : Env} {allow : Bool} {ret : Saved} {i : Nat} {w w' : World}
    (h : save env allow ret i w = .exit w') : w'.mode = w.mode := by
  unfold save at h
  repeat' split at h
  all_goals first
    | (cases h; done)
    | (cases h; rfl)
    | (rename_i h1
       cases h
       unfold tcgetattr at h1
       repeat' split at h1
       all_goals first | (cases h1; done) | (cases h1; rfl))

theorem saveAll_exit {env : Env} {allow : Bool} (is : List Nat) {ret : Saved} {w w' : World}
    (h : saveAll env allow is ret w = .exit w') : w'.mode = w.mode := by
  induction is generalizing ret w with
  | nil => cases h
  | cons i is ih =>
    simp only [saveAll] at h
    split at h
    · cases h; exact save_exit (by assumption)
    · rename_i r1 w1 h1
      rw [ih h, (tty_save h1).1]

theorem saveAll_refuses {env : Env} (is : List Nat) {ret ret' : Saved} {w w' : World}
    (hd : is.Nodup) (i : Nat) (hi : i ∈ is) (hv : ret.valid i = true) (ht : env.tty i = none) :
    saveAll env false is ret w ≠ .ok ret' w' := by
  induction is generalizing ret w with
  | nil => simp at hi
  | cons j is ih =>
    intro h
    simp only [saveAll] at h
    split at h
    · cases h
    · rename_i r1 w1 h1
      rw [List.nodup_cons] at hd
      rcases List.mem_cons.1 hi with rfl | hi'
      · simp [save, hv, ht] at h1
      · refine ih hd.2 hi' ?_ h
        rw [(tty_save h1).2.1, if_neg (by rintro rfl; exact hd.1 hi'), hv]

/-- C65.  If one of the streams the adapter needs is not connected to a terminal, and this is not
allowed, the adapter exits and has not changed any terminal. -/
theorem C65_refused (env : Env) (so se : Bool) (g : Nat → Termios) (w : World) (i : Nat)
    (hi : used so se i) (ht : env.tty i = none) :
    ∃ w', setRawTerminalMode env false so se g w = .exit w' ∧ w'.mode = w.mode := by
  unfold setRawTerminalMode
  split
  · rename_i w' h
    exact ⟨w', rfl, saveAll_exit _ h⟩
  · rename_i ret w' h
    refine absurd h (saveAll_refuses [0, 1, 2] (by simp) i ?_ ?_ ht)
    · rcases hi with rfl | ⟨rfl, _⟩ | ⟨rfl, _⟩ <;> simp
    · rcases hi with rfl | ⟨rfl, h⟩ | ⟨rfl, h⟩ <;> simp_all

/-- C65.  If no call fails, and every stream is connected to a terminal or need not be, the adapter
puts the terminals into raw mode, and restores them. -/
theorem C65_succeeds (env : Env) (allow so se : Bool) (g : Nat → Termios) (w : World)
    (hf : ∀ n, env.fails n = false) (ha : allow = true ∨ ∀ i, used so se i → (env.tty i).isSome) :
    (∃ saved w₁, setRawTerminalMode env allow so se g w = .ok saved w₁ ∧
      ∀ w₂, ∃ u w₃, restoreTerminalMode env saved w₂ = .ok u w₃) := by
  have hget : ∀ w i, (env.tty i).isSome = true → ∃ m w', tcgetattr env w i = .ok m w' := by
    intro w i h
    obtain ⟨t, ht⟩ := Option.isSome_iff_exists.1 h
    exact ⟨_, _, by simp only [tcgetattr, ht, hf]; rfl⟩
  have hset : ∀ w i m, (env.tty i).isSome = true → ∃ w', tcsetattr env w i m = .ok () w' := by
    intro w i m h
    obtain ⟨t, ht⟩ := Option.isSome_iff_exists.1 h
    exact ⟨_, by simp only [tcsetattr, ht, hf]; rfl⟩
  have hch : ∀ f w i, (env.tty i).isSome = true → ∃ w', change env f i w = .ok () w' := by
    intro f w i h
    obtain ⟨m, w', h1⟩ := hget w i h
    obtain ⟨w'', h2⟩ := hset w' i (f m) h
    exact ⟨w'', by simp [change, h1, h2]⟩
  have hsave : ∀ is ret w, (∀ i ∈ is, ret.valid i = true → allow = true ∨ (env.tty i).isSome = true) →
      is.Nodup → ∃ ret' w', saveAll env allow is ret w = .ok ret' w' := by
    intro is
    induction is with
    | nil => intro ret w _ _; exact ⟨ret, w, rfl⟩
    | cons i is ih =>
      intro ret w h hd
      rw [List.nodup_cons] at hd
      have : ∃ r1 w1, save env allow ret i w = .ok r1 w1 := by
        unfold save
        by_cases hv : ret.valid i = true
        · simp only [hv, Bool.not_true, Bool.false_eq_true, if_false]
          cases ht : env.tty i with
          | none =>
            have := h i (by simp) hv
            simp [ht] at this
            simp [this]
          | some t =>
            obtain ⟨m, w', h1⟩ := hget w i (by simp [ht])
            simp [h1]
        · simp [hv]
      obtain ⟨r1, w1, h1⟩ := this
      simp only [saveAll, h1]
      refine ih r1 w1 (fun j hj hv => h j (List.mem_cons_of_mem _ hj) ?_) hd.2
      rw [(tty_save h1).2.1, if_neg (by rintro rfl; exact hd.1 hj)] at hv
      exact hv
  obtain ⟨ret, w1, h1⟩ := hsave [0, 1, 2]
    ⟨fun i => if i = 0 then true else if i = 1 then so else se, g⟩ w (by
      intro i hi hv
      rcases ha with ha | ha
      · exact .inl ha
      · refine .inr (ha i ?_)
        simp at hi
        rcases hi with rfl | rfl | rfl <;> simpa [used] using hv) (by simp)
  have hv := (tty_saved h1).2.1
  have hin : ∃ w2, (if ret.valid 0 then change env rawInput 0 w1 else .ok () w1) = .ok () w2 := by
    split
    · rename_i h0; exact hch _ _ _ ((hv 0 (by omega)).1 h0).2
    · exact ⟨_, rfl⟩
  obtain ⟨w2, h2⟩ := hin
  have hout : ∀ is w, (∀ i ∈ is, i < 3) → ∃ w', changeOutputs env ret is w = .ok () w' := by
    intro is
    induction is with
    | nil => intro w _; exact ⟨w, rfl⟩
    | cons i is ih =>
      intro w hi
      simp only [changeOutputs]
      split
      · exact ih w fun j hj => hi j (List.mem_cons_of_mem _ hj)
      · rename_i h0
        simp at h0
        obtain ⟨w', h3⟩ := hch rawOutput w i ((hv i (hi i (by simp))).1 h0).2
        rw [h3]
        exact ih w' fun j hj => hi j (List.mem_cons_of_mem _ hj)
  obtain ⟨w3, h3⟩ := hout [1, 2] w2 (by simp)
  refine ⟨ret, w3, by simp only [setRawTerminalMode, h1, h2, h3], fun w₂ => ?_⟩
  have hres : ∀ is w, (∀ i ∈ is, i < 3) → ∃ w', restoreAll env ret is w = .ok () w' := by
    intro is
    induction is with
    | nil => intro w _; exact ⟨w, rfl⟩
    | cons i is ih =>
      intro w hi
      simp only [restoreAll]
      split
      · exact ih w fun j hj => hi j (List.mem_cons_of_mem _ hj)
      · rename_i h0
        simp at h0
        obtain ⟨w', h3⟩ := hset w i (ret.mode i) ((hv i (hi i (by simp))).1 h0).2
        rw [h3]
        exact ih w' fun j hj => hi j (List.mem_cons_of_mem _ hj)
  obtain ⟨w₃, h⟩ := hres [0, 1, 2] w₂ (by simp)
  exact ⟨(), w₃, h⟩

/-! ## Examples, and what is missing -/

/-- A terminal's usual mode. -/
def cooked : Termios :=
  ⟨true, true, true, true, true, true, false, false, true, 8, false, true, 4, 1, 38400⟩

/-- All three streams are connected to terminal 7. -/
def oneTty : Env := ⟨fun i => if i < 3 then some 7 else none, fun _ => false⟩

/-- Input from terminal 7; output is not connected to a terminal. -/
def outputFile : Env := ⟨fun i => if i = 0 then some 7 else none, fun _ => false⟩

/-- All on one terminal: raw in both ways, and restored although the mode was changed meanwhile. -/
example : ∃ saved w₁ u w₃,
    setRawTerminalMode oneTty false true true (fun _ => cooked) ⟨fun _ => cooked, 0⟩ = .ok saved w₁ ∧
    w₁.mode 7 = rawOutput (rawInput cooked) ∧ w₁.mode 7 ≠ cooked ∧ w₁.mode 8 = cooked ∧
    restoreTerminalMode oneTty saved ⟨fun _ => rawInput cooked, 100⟩ = .ok u w₃ ∧
    w₃.mode 7 = cooked ∧ inputTty oneTty 7 ∧ outputTty oneTty true true 7 :=
  ⟨_, _, _, _, rfl, rfl, by decide, rfl, rfl, rfl, rfl, .inl ⟨rfl, rfl⟩⟩

example : used true false 1 ∧ outputFile.tty 1 = none := ⟨.inr (.inl ⟨rfl, rfl⟩), rfl⟩

example : (∀ n, oneTty.fails n = false) ∧ ∀ i, used true true i → (oneTty.tty i).isSome := by
  refine ⟨fun _ => rfl, ?_⟩
  rintro i (rfl | ⟨rfl, _⟩ | ⟨rfl, _⟩) <;> rfl

/-- C65, a defect of the code.  If a call fails after the input terminal was put into raw mode, the
adapter exits without restoring it: here the mode of the output terminal cannot be changed. -/
theorem C65_not_restored_defect :
    ∃ (env : Env) (w w' : World), setRawTerminalMode env false true false (fun _ => cooked) w = .exit w' ∧
      inputTty env 7 ∧ w.mode 7 = cooked ∧ (w'.mode 7).echo = false ∧ (w'.mode 7).isig = false :=
  ⟨⟨fun i => if i < 3 then some 7 else none, fun n => n == 5⟩, ⟨fun _ => cooked, 0⟩, _, rfl, rfl, rfl,
    rfl, rfl⟩

end Winpty.Props
