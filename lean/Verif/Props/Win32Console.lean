import Verif.Model.Win32Console

/-! # C46: freezing the console is always undone; C54: titles are read completely -/
namespace Winpty.Spec.Freeze

open Winpty.Win32Console

/-- Whether the console is in selection mode after a sequence of window messages: a mark or
select-all command enters it, Escape leaves it. -/
def selecting : Bool → List Msg → Bool
  | b, [] => b
  | _, .mark :: ms => selecting true ms
  | _, .selectAll :: ms => selecting true ms
  | _, .escape :: ms => selecting false ms

/-- Every message of the sequence changes the mode: a freeze command only when not frozen, Escape
only when frozen. -/
def OnlyChanges : Bool → List Msg → Prop
  | _, [] => True
  | b, .mark :: ms => b = false ∧ OnlyChanges true ms
  | b, .selectAll :: ms => b = false ∧ OnlyChanges true ms
  | b, .escape :: ms => b = true ∧ OnlyChanges false ms

/-- A program that changes the state only through guards. -/
def GuardsOnly : Prog → Prop
  | .set _ => False
  | .seq p q => GuardsOnly p ∧ GuardsOnly q
  | .guard _ p => GuardsOnly p
  | _ => True

/-- What the operations of a guards-only program should observe: the value asked for by the
innermost enclosing guard (`b` outside of all guards).  The second component tells whether an
exception ends the program. -/
def observe (b : Bool) : Prog → List Bool × Bool
  | .look => ([b], false)
  | .throw => ([], true)
  | .seq p q =>
    match observe b p with
    | (o, true) => (o, true)
    | (o, false) => (o ++ (observe b q).1, (observe b q).2)
  | .guard c p => observe c p
  | _ => ([], false)

end Winpty.Spec.Freeze

namespace Winpty.Spec.Title

open Winpty.Win32Console

/-- `xs` written to the front of the buffer. -/
def overlay (buf xs : List Nat) : List Nat := xs ++ buf.drop xs.length

/-- What every Windows version's `GetConsoleTitleW` guarantees when the console's title is `t` (see
the three versions below): a buffer at least twice as large as needed receives the title and its
length is returned; from a smaller buffer it returns a count that asks for more room, but for no
more than the title needs.  It never writes outside the buffer. -/
def Reads (t : List Nat) (get : GetTitle) : Prop :=
  ∀ buf : List Nat, buf ≠ [] → ∃ buf' count, get buf buf.length = some (buf', count) ∧
    buf'.length = buf.length ∧
    (2 * (t.length + 1) ≤ buf.length → count = t.length ∧ buf'.take t.length = t) ∧
    (buf.length < 2 * (t.length + 1) → buf.length < 2 * (count + 1) ∧ count ≤ t.length)

/-- Windows XP (the comment at src/agent/Win32Console.cc:54-59): returns the length after
truncation; leaves the buffer alone if the title is empty. -/
def xp (t : List Nat) : GetTitle := fun buf n =>
  if t = [] then some (buf, 0)
  else some (overlay buf (t.take (min t.length (n - 1)) ++ [0]), min t.length (n - 1))

/-- Windows Vista and 7 (lines 61-67): returns the full length, but takes the buffer size for a
number of bytes. -/
def vista (t : List Nat) : GetTitle := fun buf n =>
  if n < 2 then some (buf, t.length)
  else some (overlay buf (t.take (n / 2 - 1) ++ [0]), t.length)

/-- Windows 8 and later (lines 61-62): returns the full length. -/
def win8 (t : List Nat) : GetTitle := fun buf n =>
  some (overlay buf (t.take (n - 1) ++ [0]), t.length)

end Winpty.Spec.Title

namespace Winpty.Win32Console

open Winpty.Spec.Freeze Winpty.Spec.Title

theorem setFrozen_frozen (s : State) (b : Bool) : (setFrozen s b).frozen = b := by
  unfold setFrozen
  by_cases h : b = s.frozen
  · rw [if_pos h]; exact h.symm
  · rw [if_neg h]; cases b <;> simp

theorem setFrozen_seen (s : State) (b : Bool) : (setFrozen s b).seen = s.seen := by
  unfold setFrozen
  repeat' split
  all_goals rfl

/-- What one call of `setFrozen` sends. -/
theorem setFrozen_sent (s : State) (b : Bool) :
    ∃ ms, (setFrozen s b).sent = s.sent ++ ms ∧ selecting s.frozen ms = b ∧
      OnlyChanges s.frozen ms := by
  unfold setFrozen
  by_cases h : b = s.frozen
  · rw [if_pos h]; exact ⟨[], by simp, by simp [selecting, h], trivial⟩
  · rw [if_neg h]
    have hs : s.frozen = !b := by cases b <;> cases hf : s.frozen <;> simp_all
    cases b with
    | false => exact ⟨[.escape], rfl, rfl, by rw [hs]; exact ⟨rfl, trivial⟩⟩
    | true =>
      simp only [if_true]
      cases s.freezeUsesMark with
      | true => exact ⟨[.mark], rfl, rfl, by rw [hs]; exact ⟨rfl, trivial⟩⟩
      | false => exact ⟨[.selectAll], rfl, rfl, by rw [hs]; exact ⟨rfl, trivial⟩⟩

theorem selecting_append (b : Bool) (ms ns : List Msg) :
    selecting b (ms ++ ns) = selecting (selecting b ms) ns := by
  induction ms generalizing b with
  | nil => rfl
  | cons m ms ih => cases m <;> exact ih _

theorem onlyChanges_append (b : Bool) (ms ns : List Msg) (h : OnlyChanges b ms)
    (h' : OnlyChanges (selecting b ms) ns) : OnlyChanges b (ms ++ ns) := by
  induction ms generalizing b with
  | nil => exact h'
  | cons m ms ih => cases m <;> exact ⟨h.1, ih _ h.2 h'⟩

theorem run_sent (p : Prog) : ∀ s : State,
    ∃ ms, (run p s).1.sent = s.sent ++ ms ∧ selecting s.frozen ms = (run p s).1.frozen ∧
      OnlyChanges s.frozen ms := by
  induction p with
  | look => intro s; exact ⟨[], by simp [run], by simp [run, selecting], trivial⟩
  | set b =>
    intro s
    obtain ⟨ms, h1, h2, h3⟩ := setFrozen_sent s b
    exact ⟨ms, h1, by rw [h2]; exact (setFrozen_frozen s b).symm, h3⟩
  | setUsesMark b => intro s; exact ⟨[], by simp [run], by simp [run, selecting], trivial⟩
  | throw => intro s; exact ⟨[], by simp [run], by simp [run, selecting], trivial⟩
  | seq p q ihp ihq =>
    intro s
    obtain ⟨ms, h1, h2, h3⟩ := ihp s
    simp only [run]
    rcases hp : run p s with ⟨s', t⟩
    rw [hp] at h1 h2
    cases t with
    | true => exact ⟨ms, h1, h2, h3⟩
    | false =>
      obtain ⟨ns, g1, g2, g3⟩ := ihq s'
      simp only at h1 h2 ⊢
      refine ⟨ms ++ ns, ?_, ?_, ?_⟩
      · rw [g1, h1, List.append_assoc]
      · rw [selecting_append, h2, g2]
      · exact onlyChanges_append _ _ _ h3 (by rw [h2]; exact g3)
  | guard b p ih =>
    intro s
    obtain ⟨ms, h1, h2, h3⟩ := setFrozen_sent s b
    obtain ⟨ns, g1, g2, g3⟩ := ih (setFrozen s b)
    simp only [run]
    rcases hp : run p (setFrozen s b) with ⟨s', t⟩
    rw [hp] at g1 g2
    obtain ⟨os, k1, k2, k3⟩ := setFrozen_sent s' s.frozen
    rw [setFrozen_frozen] at g2 g3
    simp only at g1 g2 ⊢
    refine ⟨ms ++ (ns ++ os), ?_, ?_, ?_⟩
    · rw [k1, g1, h1]; simp
    · rw [selecting_append, h2, selecting_append, g2, k2, setFrozen_frozen]
    · refine onlyChanges_append _ _ _ h3 ?_
      rw [h2]
      exact onlyChanges_append _ _ _ g3 (by rw [g2]; exact k3)

/-- A guards-only program leaves the state as it was and observes what it asked for. -/
theorem run_guards (p : Prog) : ∀ s : State, GuardsOnly p →
    (run p s).1.frozen = s.frozen ∧
    (run p s).1.seen = s.seen ++ (observe s.frozen p).1 ∧ (run p s).2 = (observe s.frozen p).2 := by
  induction p with
  | look => intro s _; exact ⟨rfl, rfl, rfl⟩
  | set b => intro s h; exact h.elim
  | setUsesMark b => intro s _; exact ⟨rfl, by simp [run, observe], rfl⟩
  | throw => intro s _; exact ⟨rfl, by simp [run, observe], rfl⟩
  | seq p q ihp ihq =>
    intro s h
    obtain ⟨h1, h2, h3⟩ := ihp s h.1
    simp only [run, observe]
    rcases hp : run p s with ⟨s', t⟩
    rcases ho : observe s.frozen p with ⟨o, u⟩
    rw [hp] at h1 h2 h3
    rw [ho] at h2 h3
    simp only at h1 h2 h3
    subst h3
    cases t with
    | true => exact ⟨h1, h2, rfl⟩
    | false =>
      obtain ⟨g1, g2, g3⟩ := ihq s' h.2
      rw [h1] at g2 g3
      simp only
      refine ⟨by rw [g1, h1], ?_, g3⟩
      rw [g2, h2, List.append_assoc]
  | guard b p ih =>
    intro s h
    obtain ⟨h1, h2, h3⟩ := ih (setFrozen s b) h
    simp only [run, observe]
    rcases hp : run p (setFrozen s b) with ⟨s', t⟩
    rw [hp] at h1 h2 h3
    rw [setFrozen_frozen] at h2 h3
    simp only at h1 h2 h3 ⊢
    refine ⟨setFrozen_frozen _ _, ?_, h3⟩
    rw [setFrozen_seen, h2, setFrozen_seen]

theorem overlay_length (buf xs : List Nat) (h : xs.length ≤ buf.length) :
    (overlay buf xs).length = buf.length := by
  simp only [overlay, List.length_append, List.length_drop]; omega

theorem overlay_take (buf t : List Nat) (n : Nat) (h : t.length ≤ n) :
    (overlay buf (t.take n ++ [0])).take t.length = t := by
  have : t.take n = t := List.take_of_length_le h
  simp [overlay, this, List.append_assoc]

theorem cString_eq (t rest : List Nat) (h : ∀ c ∈ t, c ≠ 0) :
    cString (t ++ 0 :: rest) = some t := by
  induction t with
  | nil => simp [cString]
  | cons c cs ih =>
    have hc := h c (List.mem_cons_self ..)
    simp only [List.cons_append, cString, if_neg hc, ih (fun x hx => h x (List.mem_cons_of_mem _ hx))]

theorem set_eq (l t : List Nat) (h : t.length < l.length) (ht : l.take t.length = t) :
    l.set t.length 0 = t ++ 0 :: l.drop (t.length + 1) := by
  rw [List.set_eq_take_append_cons_drop, if_pos h, ht]

end Winpty.Win32Console

namespace Winpty.Props

open Winpty.Win32Console Winpty.Spec.Freeze Winpty.Spec.Title

/-- C46.  A scope with a freeze guard leaves the console as it found it: whatever runs inside it
(further guards, direct freeze and unfreeze requests, exceptions), and whatever it asked for. -/
theorem C46_guard_restores (b : Bool) (p : Prog) (s : State) :
    (run (.guard b p) s).1.frozen = s.frozen := by
  simp only [run]
  exact setFrozen_frozen _ _

/-- C46.  So does every program that uses guards only; and each of its operations runs with the
console in the state asked for by the innermost guard around it. -/
theorem C46_guards_nest (p : Prog) (s : State) (h : GuardsOnly p) :
    (run p s).1.frozen = s.frozen ∧ (run p s).1.seen = s.seen ++ (observe s.frozen p).1 := by
  obtain ⟨h1, h2, _⟩ := run_guards p s h
  exact ⟨h1, h2⟩

/-- C46.  Messages are sent to the console window only when the state really changes, and if the
window was in selection mode exactly when the agent took it to be frozen, that is still so. -/
theorem C46_messages (p : Prog) (s : State) :
    ∃ ms, (run p s).1.sent = s.sent ++ ms ∧ OnlyChanges s.frozen ms ∧
      selecting s.frozen ms = (run p s).1.frozen := by
  obtain ⟨ms, h1, h2, h3⟩ := run_sent p s
  exact ⟨ms, h1, h3, h2⟩

-- a nested use that ends with an exception
example : run (.guard true (.seq .look (.guard false (.seq .look .throw)))) ⟨false, true, [], []⟩ =
    (⟨false, true, [.mark, .escape, .mark, .escape], [true, false]⟩, true) := rfl
example : run (.guard true (.seq (.set false) (.seq .look (.set true)))) ⟨false, false, [], []⟩ =
    (⟨false, false, [.selectAll, .escape, .selectAll, .escape], [false]⟩, false) := rfl

/-- C54.  The title is read completely: for every version of Windows, whatever the size of the work
buffer, and even if the title changes between two attempts (as long as it does not grow beyond
`bound`), the loop ends, and the result is the complete title at the moment of the last attempt. -/
theorem C54_title_complete (t : Nat → List Nat) (bound : Nat)
    (hb : ∀ k, (t k).length ≤ bound) (hz : ∀ k, ∀ c ∈ t k, c ≠ 0)
    (get : Nat → GetTitle) (hget : ∀ k, Reads (t k) (get k)) (buf : List Nat) (hbuf : buf ≠ [])
    (fuel : Nat) (hf : 2 * bound + 3 ≤ fuel) :
    ∃ k buf', title get 0 buf fuel = .ok (t k) buf' ∧ buf' ≠ [] := by
  have main : ∀ (fuel k : Nat) (buf : List Nat), buf ≠ [] →
      2 * (bound + 1) - buf.length < fuel →
      ∃ k' buf', title get k buf fuel = .ok (t k') buf' ∧ buf' ≠ [] := by
    intro fuel
    induction fuel with
    | zero => intro k buf _ h; omega
    | succ fuel ih =>
      intro k buf hne hf
      obtain ⟨buf', count, h1, h2, h3, h4⟩ := hget k buf hne
      have hpos : 0 < buf.length := List.length_pos_iff.mpr hne
      have hbk := hb k
      simp only [title, h1]
      by_cases hbig : 2 * ((t k).length + 1) ≤ buf.length
      · obtain ⟨hc, ht⟩ := h3 hbig
        rw [if_neg (by omega), hc, set_eq buf' (t k) (by omega) ht, cString_eq _ _ (hz k)]
        exact ⟨k, _, rfl, by simp⟩
      · obtain ⟨hc, hle⟩ := h4 (by omega)
        rw [if_pos (by omega)]
        have hgl : (growTo buf' ((count + 1) * 2)).length = (count + 1) * 2 := by
          simp only [growTo, List.length_append, List.length_replicate]; omega
        refine ih (k + 1) _ ?_ (by rw [hgl]; omega)
        intro e
        rw [e] at hgl
        simp only [List.length_nil] at hgl
        omega
  have hpos : 0 < buf.length := List.length_pos_iff.mpr hbuf
  exact main fuel 0 buf hbuf (by omega)

/-- C54.  The three versions of Windows the code distinguishes do guarantee what the theorem
needs. -/
theorem C54_windows_versions (t : List Nat) :
    Reads t (xp t) ∧ Reads t (vista t) ∧ Reads t (win8 t) := by
  refine ⟨?_, ?_, ?_⟩
  · intro buf hne
    have hpos : 0 < buf.length := List.length_pos_iff.mpr hne
    unfold xp
    by_cases h0 : t = []
    · subst h0
      simp only [if_true]
      exact ⟨buf, 0, rfl, rfl, by simp, by simp⟩
    · rw [if_neg h0]
      refine ⟨_, _, rfl, overlay_length _ _ ?_, ?_, ?_⟩
      · simp only [List.length_append, List.length_take, List.length_cons, List.length_nil]; omega
      · intro h
        exact ⟨by omega, overlay_take _ _ _ (by omega)⟩
      · intro h; omega
  · intro buf hne
    have hpos : 0 < buf.length := List.length_pos_iff.mpr hne
    unfold vista
    by_cases h1 : buf.length < 2
    · rw [if_pos h1]
      exact ⟨_, _, rfl, rfl, by intro h; omega, by intro h; omega⟩
    · rw [if_neg h1]
      refine ⟨_, _, rfl, overlay_length _ _ ?_, ?_, ?_⟩
      · simp only [List.length_append, List.length_take, List.length_cons, List.length_nil]; omega
      · intro h
        exact ⟨rfl, overlay_take _ _ _ (by omega)⟩
      · intro h; omega
  · intro buf hne
    have hpos : 0 < buf.length := List.length_pos_iff.mpr hne
    unfold win8
    refine ⟨_, _, rfl, overlay_length _ _ ?_, ?_, ?_⟩
    · simp only [List.length_append, List.length_take, List.length_cons, List.length_nil]; omega
    · intro h
      exact ⟨rfl, overlay_take _ _ _ (by omega)⟩
    · intro h; omega

-- a title longer than the work buffer, on each version
example : (match title (fun _ => xp [97, 98, 99, 100]) 0 [0, 0, 0] 20 with
    | .ok t _ => t | _ => []) = [97, 98, 99, 100] := by decide
example : (match title (fun _ => vista [97, 98, 99, 100]) 0 [0, 0, 0] 20 with
    | .ok t _ => t | _ => []) = [97, 98, 99, 100] := by decide
example : (match title (fun _ => win8 [97, 98, 99, 100]) 0 [0, 0, 0] 20 with
    | .ok t _ => t | _ => []) = [97, 98, 99, 100] := by decide

end Winpty.Props
