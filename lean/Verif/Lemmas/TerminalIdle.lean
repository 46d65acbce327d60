import Verif.Lemmas.TerminalOps
import Verif.Lemmas.ScraperEmit

/-! Placing the cursor again where it is, and hiding it again, writes nothing. -/
namespace Winpty.Terminal

open Winpty.Spec.Term
open Winpty.ConsoleLine (Cell)

theorem performAll_append : ∀ (a b : List Op) (t : Term),
    performAll t (a ++ b) = (performAll t a).bind fun t' => performAll t' b := by
  intro a
  induction a with
  | nil => intro b t; rfl
  | cons op a ih =>
    intro b t
    simp only [List.cons_append, performAll]
    cases perform t op with
    | none => rfl
    | some t' => exact ih b t'

/-- Nothing would be written to hide the cursor. -/
def Hidden (t : Term) : Prop := t.plainMode = true ∨ t.cursorHidden = true

theorem hidden_hide (t : Term) : Hidden (hideTerminalCursor t) := by
  unfold Hidden hideTerminalCursor
  cases h1 : t.plainMode <;> cases h2 : t.cursorHidden <;> simp [h1, h2, write]

theorem hide_hidden {t : Term} (h : Hidden t) : hideTerminalCursor t = t := by
  unfold hideTerminalCursor
  rcases h with h | h <;> simp [h]

theorem Hidden.of {t t' : Term} (h : Hidden t) (h1 : t'.plainMode = t.plainMode)
    (h2 : t'.cursorHidden = t.cursorHidden) : Hidden t' := by
  unfold Hidden at *; rw [h1, h2]; exact h

theorem hidden_move {t : Term} (h : Hidden t) (line : Int) : Hidden (moveTerminalToLine t line) := by
  unfold moveTerminalToLine
  split
  · exact h
  · simp only [hide_hidden h]
    split
    · split <;> exact h.of rfl rfl
    · exact h.of rfl rfl

theorem hidden_startRow {t : Term} (h : Hidden t) (valid : Bool) : Hidden (startRow t valid) := by
  unfold startRow
  split
  · exact h.of rfl rfl
  · simp only [hide_hidden h]; exact h.of rfl rfl

theorem hidden_finish {t t' : Term} (h : Hidden t) {line : List Cell} {col : Int} {s : Loop}
    (hf : finishLine t line col s = some t') : Hidden t' := by
  unfold finishLine at hf
  simp only at hf
  have h1 : Hidden { t with remoteColor := s.remoteColor } := h.of rfl rfl
  rw [hide_hidden h1, ite_self] at hf
  split at hf
  · cases hf
  · rw [Option.some.injEq] at hf
    subst hf
    split <;> exact h1.of rfl rfl

theorem hidden_send {t t' : Term} (h : Hidden t) {line : Int} {cells : List Cell} {col : Int}
    (hs : sendLine t line cells col = some t') : Hidden t' := by
  unfold sendLine at hs
  split at hs
  · cases hs
  · simp only at hs
    cases hc : checkAppend (moveTerminalToLine t line) cells with
    | none => rw [hc] at hs; cases hs
    | some valid =>
      rw [hc] at hs
      simp only at hs
      have h1 := hidden_startRow (hidden_move h line) valid
      generalize startRow (moveTerminalToLine t line) valid = t1 at hs h1
      cases ho : outputLoop t1.plainMode t1.outputColor cells.length (cells.drop t1.lineData.length)
          t1.lineData.length ⟨[], 0, t1.lineData.length, false, t1.remoteColor⟩ with
      | none => rw [ho] at hs; cases hs
      | some s => rw [ho] at hs; exact hidden_finish h1 hs

theorem hidden_sends : ∀ (ops : List Op) (t t' : Term), Hidden t →
    (∀ op ∈ ops, ∃ l cells col, op = .send l cells col) → performAll t ops = some t' → Hidden t' := by
  intro ops
  induction ops with
  | nil => intro t t' h _ hp; simp only [performAll, Option.some.injEq] at hp; rw [← hp]; exact h
  | cons op ops ih =>
    intro t t' h hall hp
    obtain ⟨l, cells, col, rfl⟩ := hall op (by simp)
    simp only [performAll, perform] at hp
    cases hs : sendLine t l cells col with
    | none => rw [hs] at hp; cases hp
    | some t1 =>
      rw [hs] at hp
      exact ih t1 t' (hidden_send h hs) (fun op ho => hall op (by simp [ho])) hp

theorem move_line (t : Term) (line : Int) : (moveTerminalToLine t line).remoteLine = line := by
  unfold moveTerminalToLine
  split
  · rename_i h; exact h.symm
  · rfl

theorem move_again {t : Term} {line : Int} (h : t.remoteLine = line) : moveTerminalToLine t line = t := by
  unfold moveTerminalToLine; rw [if_pos h.symm]

theorem show_again (t : Term) (column line : Int) :
    showTerminalCursor (showTerminalCursor t column line) column line = showTerminalCursor t column line := by
  have hl := move_line t line
  unfold showTerminalCursor
  generalize moveTerminalToLine t line = t1 at *
  simp only
  cases hp : t1.plainMode with
  | true => simp [hp, move_again hl]
  | false =>
    by_cases hc : t1.remoteColumn = column
    · cases hh : t1.cursorHidden with
      | true => simp [hp, hc, hh, write, move_again hl, moveTerminalToLine, hl]
      | false => simp [hp, hc, hh, move_again hl]
    · cases hh : t1.cursorHidden with
      | true => simp [hp, hc, hh, write, moveTerminalToLine, hl]
      | false => simp [hp, hc, hh, write, moveTerminalToLine, hl]

end Winpty.Terminal

namespace Winpty.Scraper

open Winpty.Agent (TermCall)
open Winpty.Terminal
open Winpty.Spec.Term
open Winpty.Spec.Scrape

/-- Placing or hiding the cursor again as it was placed or hidden last, no line having been sent since,
changes nothing. -/
theorem performAll_again (term : Term) (before : List TermCall) (shown : Bool) (cc cl : Int)
    (lines : List TermCall) (hl : ∀ call ∈ lines, ∃ l cells col, call = TermCall.sendLine l cells col) :
    performAll term (((before ++ emitted shown cc cl lines) ++ emitted shown cc cl []).map opOf) =
      performAll term ((before ++ emitted shown cc cl lines).map opOf) := by
  rw [List.map_append, performAll_append]
  cases hp : performAll term ((before ++ emitted shown cc cl lines).map opOf) with
  | none => rfl
  | some t' =>
    simp only [Option.bind_some]
    rw [List.map_append, performAll_append, Option.bind_eq_some_iff] at hp
    obtain ⟨t1, _, hp⟩ := hp
    unfold emitted at hp ⊢
    cases shown with
    | true =>
      simp only [if_true, List.nil_append, List.append_nil, List.map_append, List.map_cons, List.map_nil,
        performAll_append, Option.bind_eq_some_iff, opOf, performAll, perform] at hp ⊢
      obtain ⟨t2, _, hp⟩ := hp
      rw [Option.some.injEq] at hp ⊢
      rw [← hp, show_again]
    | false =>
      simp only [Bool.false_eq_true, if_false, List.append_nil, List.map_append, List.map_cons, List.map_nil,
        performAll_append, Option.bind_eq_some_iff, opOf, performAll, perform] at hp ⊢
      obtain ⟨t2, h2, hp⟩ := hp
      rw [Option.some.injEq] at h2 ⊢
      refine hide_hidden (hidden_sends _ _ _ ?_ ?_ hp)
      · rw [← h2]; exact hidden_hide t1
      · intro op ho
        obtain ⟨call, hc, rfl⟩ := List.mem_map.mp ho
        obtain ⟨l, cells, col, rfl⟩ := hl call hc
        exact ⟨_, _, _, rfl⟩

end Winpty.Scraper
