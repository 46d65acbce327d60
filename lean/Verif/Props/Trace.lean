import Verif.Model.Trace
import Verif.Spec.Trace

/-!
# C71: tracing does not disturb, and messages arrive whole
-/
namespace Winpty.Trace

theorem cString_of {text rest : List Nat} (h : 0 ∉ text) : cString (text ++ 0 :: rest) = text := by
  unfold cString
  rw [List.takeWhile_append_of_pos]
  · simp
  · intro a ha
    simp only [ne_eq, decide_not, Bool.not_eq_eq_eq_not, Bool.not_true, decide_eq_false_iff_not]
    rintro rfl
    exact h ha

theorem set_append (a b : List Nat) (x y n : Nat) (hn : n = a.length) :
    (a ++ x :: b).set n y = a ++ y :: b := by
  subst hn
  induction a with
  | nil => rfl
  | cons c a ih => simp only [List.cons_append, List.length_cons, List.set_cons_succ, ih]

theorem cString_set : ∀ (b : List Nat) (n : Nat), (cString b).length ≤ n → cString (b.set n 0) = cString b
  | [], _, _ => rfl
  | x :: b, n, h => by
    unfold cString at *
    by_cases hx : x = 0
    · subst hx
      cases n with
      | zero => simp
      | succ n => simp
    · have e : List.takeWhile (fun y => decide (y ≠ 0)) (x :: b) =
          x :: List.takeWhile (fun y => decide (y ≠ 0)) b := by simp [hx]
      rw [e] at h
      cases n with
      | zero => simp at h
      | succ n =>
        have ih := cString_set b n (by simpa [cString] using h)
        unfold cString at ih
        simp only [List.set_cons_succ]
        rw [e, ← ih]
        simp [hx]

/-- The threads that hold a copy. -/
structure Holders (c : Cache) (l : List Nat) : Prop where
  nodup : l.Nodup
  mem : ∀ t, t ∈ l ↔ ∃ config, c.pc t = .copied config

structure CacheInv (c : Cache) : Prop where
  leaving : ∀ t, c.pc t = .leaving → c.config ≠ none
  returned : ∀ t v, (t, v) ∈ c.returned → v = c.config ∧ c.config ≠ none
  copies : ∃ l, Holders c l ∧ c.made = c.deleted + l.length + c.config.toList.length

theorem goto_pc (c : Cache) (t : Nat) (p : Pc) (t' : Nat) :
    (c.goto t p).pc t' = if t' = t then p else c.pc t' := rfl

theorem holders_same {c c' : Cache} {t : Nat} {p : Pc} {l : List Nat} (h : Holders c l)
    (hp : c'.pc = (c.goto t p).pc) (h1 : ∀ x, c.pc t ≠ .copied x) (h2 : ∀ x, p ≠ .copied x) :
    Holders c' l := by
  refine ⟨h.nodup, fun t' => ?_⟩
  rw [h.mem, hp]
  simp only [goto_pc]
  by_cases ht : t' = t
  · subst ht
    rw [if_pos rfl]
    constructor
    · rintro ⟨x, hx⟩; exact absurd hx (h1 x)
    · rintro ⟨x, hx⟩; exact absurd hx (h2 x)
  · rw [if_neg ht]

theorem holders_add {c c' : Cache} {t : Nat} {x : List Nat} {l : List Nat} (h : Holders c l)
    (hp : c'.pc = (c.goto t (.copied x)).pc) (h1 : ∀ x, c.pc t ≠ .copied x) : Holders c' (t :: l) := by
  refine ⟨List.nodup_cons.mpr ⟨fun hm => ?_, h.nodup⟩, fun t' => ?_⟩
  · obtain ⟨y, hy⟩ := (h.mem t).mp hm
    exact h1 y hy
  · rw [List.mem_cons, h.mem, hp]
    simp only [goto_pc]
    by_cases ht : t' = t
    · rw [if_pos ht]; exact ⟨fun _ => ⟨x, rfl⟩, fun _ => .inl ht⟩
    · rw [if_neg ht]; exact ⟨fun h => h.resolve_left ht, .inr⟩

theorem holders_del {c c' : Cache} {t : Nat} {x : List Nat} {l : List Nat} (h : Holders c l)
    (hp : c'.pc = (c.goto t .leaving).pc) (h1 : c.pc t = .copied x) :
    Holders c' (l.erase t) ∧ l.length = (l.erase t).length + 1 := by
  have hm : t ∈ l := (h.mem t).mpr ⟨x, h1⟩
  refine ⟨⟨h.nodup.erase t, fun t' => ?_⟩, ?_⟩
  · rw [h.nodup.mem_erase_iff, h.mem, hp]
    simp only [goto_pc]
    by_cases ht : t' = t
    · rw [if_pos ht]
      constructor
      · rintro ⟨h, _⟩; exact absurd ht h
      · rintro ⟨y, hy⟩; cases hy
    · rw [if_neg ht]; exact ⟨fun h => h.2, fun h => ⟨ht, h⟩⟩
  · rw [List.length_erase_of_mem hm]
    have := List.length_pos_of_mem hm
    omega

theorem cache_inv {c : Cache} (h : Steps c) : CacheInv c := by
  induction h with
  | init =>
    exact ⟨fun _ h => (by cases h), fun _ _ h => (by cases h),
      [], ⟨List.nodup_nil, fun t => ⟨fun h => (by cases h), fun ⟨_, h⟩ => (by cases h)⟩⟩, rfl⟩
  | step t _ hstep ih =>
    obtain ⟨l, hl, hcount⟩ := ih.copies
    have lv : ∀ {c c' : Cache} {p : Pc}, (∀ t', c.pc t' = .leaving → c.config ≠ none) →
        c'.pc = (c.goto t p).pc → c'.config = c.config → (p = .leaving → c.config ≠ none) →
        ∀ t', c'.pc t' = .leaving → c'.config ≠ none := by
      intro c c' p hc hp hcfg hq t' ht'
      rw [hp] at ht'
      simp only [goto_pc] at ht'
      rw [hcfg]
      by_cases ht : t' = t
      · rw [if_pos ht] at ht'; exact hq ht'
      · rw [if_neg ht] at ht'; exact hc t' ht'
    cases hstep with
    | found h1 h2 =>
      exact ⟨lv (p := .leaving) ih.leaving rfl rfl (fun _ => h2), ih.returned,
        l, holders_same (p := .leaving) hl rfl (fun x hx => by rw [h1] at hx; cases hx) (fun x hx => by cases hx),
        hcount⟩
    | missing h1 h2 =>
      exact ⟨lv (p := .missing) ih.leaving rfl rfl (fun h => by cases h), ih.returned,
        l, holders_same (p := .missing) hl rfl (fun x hx => by rw [h1] at hx; cases hx) (fun x hx => by cases hx),
        hcount⟩
    | copy env h1 =>
      refine ⟨lv (p := .copied _) ih.leaving rfl rfl (fun h => by cases h), ih.returned,
        t :: l, holders_add hl rfl (fun x hx => by rw [h1] at hx; cases hx), ?_⟩
      simp only [List.length_cons, Cache.goto]
      omega
    | exchanged h1 h2 =>
      obtain ⟨d1, d2⟩ := holders_del (c' := { Cache.goto _ t .leaving with config := some _ }) hl rfl h1
      refine ⟨fun _ _ h => (by cases h), ?_, _, d1, ?_⟩
      · intro t' v hm
        exact absurd h2 (ih.returned t' v hm).2
      · rw [h2] at hcount
        simp only [Option.toList_none, List.length_nil] at hcount
        simp only [Cache.goto, Option.toList_some, List.length_singleton]
        omega
    | lost h1 h2 =>
      obtain ⟨d1, d2⟩ := holders_del (c' := Cache.goto _ t .leaving) hl rfl h1
      refine ⟨lv (p := .leaving) ih.leaving rfl rfl (fun _ => h2), ih.returned, _, ⟨d1.nodup, d1.mem⟩, ?_⟩
      simp only [Cache.goto]
      omega
    | leave h1 =>
      refine ⟨lv (p := .out) ih.leaving rfl rfl (fun h => by cases h), ?_,
        l, holders_same (p := .out) hl rfl (fun x hx => by rw [h1] at hx; cases hx) (fun x hx => by cases hx),
        hcount⟩
      intro t' v hm
      rcases List.mem_append.mp hm with hm | hm
      · exact ih.returned t' v hm
      · obtain ⟨rfl, rfl⟩ := Prod.mk.inj (List.mem_singleton.mp hm)
        exact ⟨rfl, ih.leaving _ h1⟩

end Winpty.Trace

namespace Winpty.Props

open Winpty.Trace
open Winpty.Spec.Trace

/-- C71.  Whatever the C library does with a text that is too long, the buffer then holds the text up to
what fits, as a C string; what is returned tells whether it was all. -/
theorem C71_printed (old text : List Nat) (hsize : 0 < old.length) (ht : 0 ∉ text) (lib : List Nat × Int)
    (h : Prints old.length text lib) :
    ∃ buffer count, winptyVsnprintf old lib = some (buffer, count) ∧ buffer.length = old.length ∧
      cString buffer = text.take (old.length - 1) ∧
      count = if text.length < old.length then (text.length : Int) else -1 := by
  have htake : ∀ n, 0 ∉ text.take n := fun n hm => ht (List.mem_of_mem_take hm)
  have hl : old.length ≤ text.length → (text.take (old.length - 1)).length = old.length - 1 := by
    intro hf; rw [List.length_take]; omega
  have cut : old.length ≤ text.length → ∀ l : List Nat,
      ((text.take (old.length - 1) ++ [0] ++
        (l.take old.length).drop (text.take (old.length - 1) ++ [0]).length).set (old.length - 1) 0).length =
      old.length := by
    intro hf l
    simp only [List.length_set, List.length_append, List.length_drop, List.length_cons, List.length_nil,
      hl hf, List.length_take]
    omega
  have cut2 : old.length ≤ text.length → ∀ l : List Nat,
      cString ((text.take (old.length - 1) ++ [0] ++
        l.drop (text.take (old.length - 1) ++ [0]).length).set (old.length - 1) 0) =
      text.take (old.length - 1) := by
    intro hf l
    rw [List.append_assoc, List.singleton_append, set_append _ _ _ _ _ (hl hf).symm, cString_of (htake _)]
  have split : old.length ≤ text.length →
      ∃ x, text.take old.length = text.take (old.length - 1) ++ [x] := by
    intro hf
    refine ⟨text[old.length - 1]'(by omega), ?_⟩
    rw [List.take_append_getElem, Nat.sub_add_cancel hsize]
  have full : old.length ≤ text.length → ∀ l : List Nat,
      ((text.take old.length ++
        (l.take old.length).drop (text.take old.length).length).set (old.length - 1) 0).length =
      old.length := by
    intro hf l
    simp only [List.length_set, List.length_append, List.length_drop, List.length_take]
    omega
  have full2 : old.length ≤ text.length → ∀ l : List Nat,
      cString ((text.take old.length ++ l.drop (text.take old.length).length).set (old.length - 1) 0) =
      text.take (old.length - 1) := by
    intro hf l
    obtain ⟨x, hx⟩ := split hf
    rw [hx, List.append_assoc, List.singleton_append, set_append _ _ _ _ _ (hl hf).symm,
      cString_of (htake _)]
  have hlen : (old.set 0 0).length = old.length := List.length_set ..
  have hself : (old.set 0 0).take old.length = old.set 0 0 := List.take_of_length_le (by omega)
  unfold winptyVsnprintf
  rw [if_pos hsize]
  cases h with
  | fits hf =>
    simp only
    rw [if_neg (by omega)]
    refine ⟨_, _, rfl, ?_, ?_, by rw [if_pos hf]⟩
    · simp only [List.length_set, List.length_append, List.length_drop, List.length_cons, List.length_nil]
      omega
    · rw [List.append_assoc, List.singleton_append, Int.toNat_natCast, set_append _ _ _ _ _ rfl,
        cString_of ht, List.take_of_length_le (by omega)]
  | c99 hf =>
    simp only
    rw [if_pos (by omega)]
    exact ⟨_, _, rfl, (by have := cut hf (old.set 0 0); rw [hself] at this; exact this), cut2 hf _, by rw [if_neg (by omega)]⟩
  | microsoft hf =>
    simp only
    rw [if_pos (by omega)]
    exact ⟨_, _, rfl, (by have := full (by omega) (old.set 0 0); rw [hself] at this; exact this), full2 (by omega) _, by rw [if_neg (by omega)]⟩
  | microsoftExact hf =>
    simp only
    rw [if_pos (by omega)]
    have e : text = text.take old.length := by rw [List.take_of_length_le (by omega)]
    refine ⟨_, _, rfl, ?_, ?_, by rw [if_neg (by omega)]⟩
    · have := full (by omega) (old.set 0 0)
      rw [hself, ← e] at this; exact this
    · have := full2 (by omega) (old.set 0 0)
      rw [← e] at this; exact this
  | truncate hf =>
    simp only
    rw [if_pos (by omega)]
    exact ⟨_, _, rfl, (by have := cut hf (old.set 0 0); rw [hself] at this; exact this), cut2 hf _, by rw [if_neg (by omega)]⟩

/-- C71.  The message sent is the heading and the text, cut off so that it has at most 1023 characters;
whatever the C library does and the arrays contained. -/
theorem C71_message (old oldFull heading text : List Nat) (ho : old.length = 1024)
    (hf : oldFull.length = 1024) (hh : 0 ∉ heading) (ht : 0 ∉ text) (printed : List Nat × Int)
    (printedFull : List Nat → List Nat × Int) (h1 : Prints 1024 text printed)
    (h2 : ∀ s, 0 ∉ s → Prints 1024 (heading ++ s) (printedFull s)) :
    message old oldFull printed printedFull = some ((heading ++ text).take 1023) := by
  obtain ⟨b1, c1, e1, l1, s1, _⟩ := C71_printed old text (by omega) ht printed (by rw [ho]; exact h1)
  rw [ho] at s1 l1
  have hs : cString (b1.set (old.length - 1) 0) = text.take 1023 := by
    rw [cString_set b1 _ (by rw [s1, List.length_take]; omega), s1]
  have h0 : 0 ∉ text.take 1023 := fun hm => ht (List.mem_of_mem_take hm)
  obtain ⟨b2, c2, e2, l2, s2, _⟩ := C71_printed oldFull (heading ++ text.take 1023) (by omega)
    (by rw [List.mem_append]; exact fun h => h.elim hh h0) (printedFull (text.take 1023))
    (by rw [hf]; exact h2 _ h0)
  rw [hf] at s2 l2
  unfold message
  rw [e1]
  simp only
  rw [hs, e2]
  simp only [Option.some.injEq]
  rw [cString_set b2 _ (by rw [s2, List.length_take]; omega), s2]
  simp only [List.take_append, List.take_take, Nat.reduceSub]
  congr 2
  omega

/-- C71.  However many threads ask for the debug configuration at the same time, and even if the
environment changes in the meantime: all calls, in all threads, return the same configuration. -/
theorem C71_same_configuration (c : Cache) (h : Steps c) (t t' : Nat) (v v' : Option (List Nat))
    (h1 : (t, v) ∈ c.returned) (h2 : (t', v') ∈ c.returned) : v = v' ∧ v ≠ none := by
  have hi := cache_inv h
  obtain ⟨e1, n1⟩ := hi.returned t v h1
  obtain ⟨e2, _⟩ := hi.returned t' v' h2
  exact ⟨by rw [e1, e2], by rw [e1]; exact n1⟩

/-- C71.  And no copy leaks: when no thread is in the function, one copy is left, or none was made. -/
theorem C71_one_copy (c : Cache) (h : Steps c) (hout : ∀ t, c.pc t = .out) :
    c.made = c.deleted + c.config.toList.length := by
  obtain ⟨l, hl, hc⟩ := (cache_inv h).copies
  cases l with
  | nil => simpa using hc
  | cons t l =>
    obtain ⟨x, hx⟩ := (hl.mem t).mp (List.mem_cons_self ..)
    rw [hout t] at hx
    cases hx

/-- C71.  Whatever the calls made in between do to it, after `trace`, `isTracingEnabled` and
`hasDebugFlag` the thread's last error is what it was. -/
theorem C71_last_error_kept (known enabled fresh empty : Bool) (body rest effects : Nat → Nat) (err : Nat) :
    lastErrorTrace known enabled body rest err = err ∧ lastErrorIsTracingEnabled known body err = err ∧
    lastErrorHasDebugFlag fresh empty effects rest err = err := by
  refine ⟨?_, ?_, ?_⟩
  · unfold lastErrorTrace lastErrorIsTracingEnabled preserve
    cases enabled <;> cases known <;> rfl
  · unfold lastErrorIsTracingEnabled preserve
    cases known <;> rfl
  · unfold lastErrorHasDebugFlag lastErrorGetDebugConfig preserve
    cases empty <;> cases fresh <;> rfl

/-- C71.  The messages of any number of `trace` calls, of whatever programs, that reach the debug
server come out as one line each, in the order in which they reached it, and the server goes on.
Missing: clients that connect before the server waits for one (`C71_early_client_defect`). -/
theorem C71_lines_partial (messages : List (List Nat)) (hm : ∀ m ∈ messages, m.length ≤ 1023)
    (rounds : Nat → Round)
    (h : ∀ i m, messages[i]? = some m → Client msgSize .waiting m (rounds i)) :
    serve ((List.range messages.length).map rounds) = ((messages.map (· ++ [10])).flatten, true) := by
  induction messages generalizing rounds with
  | nil => rfl
  | cons m messages ih =>
    have h1 := hm _ (List.mem_cons_self ..)
    have ih := ih (fun m h => hm m (List.mem_cons_of_mem _ h)) (fun i => rounds (i + 1))
      (fun i m' hi => h (i + 1) m' (by simpa using hi))
    have hr : rounds 0 = .read m := by
      have h0 := h 0 m rfl
      generalize rounds 0 = r at h0
      cases h0 with
      | whole _ => rfl
      | long hl => unfold msgSize at hl; omega
    rw [List.length_cons, List.range_succ_eq_map, List.map_cons, List.map_map, hr]
    simp only [serve]
    rw [show rounds ∘ Nat.succ = fun i => rounds (i + 1) from rfl, ih]
    simp only [List.map_cons, List.flatten_cons, List.append_assoc, List.singleton_append]

/-- C71.  A defect: a client that connects after the server has created the pipe and before it waits for
a client is not served: `ConnectNamedPipe` then fails with `ERROR_PIPE_CONNECTED` (535), which is
documented to mean that there is a good connection, and the server ends. -/
theorem C71_early_client_defect (m : List Nat) :
    ∃ round, Client msgSize .early m round ∧ ∀ rounds, serve (round :: rounds) = ([], false) :=
  ⟨_, .early, fun _ => rfl⟩

/-! ## Examples -/

-- a text that is too long, with a library that returns -1 and does not terminate
example : Prints 3 [65, 66, 67, 68] ([65, 66, 67], -1) ∧
    winptyVsnprintf [9, 9, 9] ([65, 66, 67], -1) = some ([65, 66, 0], -1) :=
  ⟨.microsoft (by decide), rfl⟩

example : ∃ printed printedFull, Prints 1024 [65] printed ∧
    (∀ s, 0 ∉ s → Prints 1024 ([91, 93] ++ s) (printedFull s)) ∧
    message (List.replicate 1024 7) (List.replicate 1024 7) printed printedFull = some [91, 93, 65] := by
  have h1 : Prints 1024 [65] ([65, 0], 1) := .fits (by decide)
  refine ⟨_, fun s => if ([91, 93] ++ s).length < 1024 then ([91, 93] ++ s ++ [0], ([91, 93] ++ s).length)
    else (([91, 93] ++ s).take 1023 ++ [0], ([91, 93] ++ s).length), h1, ?_, ?_⟩
  · intro s _
    dsimp only
    split
    · next h => exact .fits h
    · next h => exact .c99 (by omega)
  · refine C71_message _ _ [91, 93] [65] (List.length_replicate ..) (List.length_replicate ..) (by decide) (by decide) _ _ h1 ?_
    intro s _
    split
    · next h => exact .fits h
    · next h => exact .c99 (by omega)

/-- Two threads find no configuration, the environment changes in between, and both return. -/
example : ∃ c, Steps c ∧ c.returned = [(0, some [116]), (1, some [116])] ∧ c.made = 2 ∧ c.deleted = 1 := by
  refine ⟨_, .step 1 (.step 0 (.step 1 (.step 0 (.step 1 (.step 0 (.step 1 (.step 0 .init
    (.missing rfl rfl)) (.missing rfl rfl)) (.copy (some [116]) rfl)) (.copy (some [117]) rfl))
    (.exchanged rfl rfl)) (.lost rfl (by decide))) (.leave rfl)) (.leave rfl), ?_⟩
  decide

end Winpty.Props
