import Verif.Model.Detect
import Verif.Spec.Detect
import Verif.Props.ConsoleResize

/-!
# C78: what the agent finds out about its system
-/
namespace Winpty.Props

open Winpty.Detect
open Winpty.SmallRect (Rect Coord mk4 short)
open Winpty.Scraper (Con Info)
open Winpty.ConsoleResize (Api)
open Winpty.Win32Console (Msg setFrozen)
open Winpty.Spec.ConsoleApi
open Winpty.Spec.Detect

/-- The tests of the version are right for every version of Windows, also for the later ones that claim to be
Windows 8. -/
theorem C78_version (r : Release) (v : Nat × Nat) (h : Reports r v) :
    (isAtLeastWindowsVista v = true ↔ Release.age .vista ≤ r.age) ∧
    (isAtLeastWindows7 v = true ↔ Release.age .seven ≤ r.age) ∧
    (isAtLeastWindows8 v = true ↔ Release.age .eight ≤ r.age) := by
  cases h <;> decide

/-- No later version can come out older: the tests are monotonic in the number. -/
theorem C78_later (v w : Nat × Nat) (h : v.1 < w.1 ∨ (v.1 = w.1 ∧ v.2 ≤ w.2)) :
    (isAtLeastWindowsVista v = true → isAtLeastWindowsVista w = true) ∧
    (isAtLeastWindows7 v = true → isAtLeastWindows7 w = true) ∧
    (isAtLeastWindows8 v = true → isAtLeastWindows8 w = true) := by
  simp only [isAtLeastWindowsVista, isAtLeastWindows7, isAtLeastWindows8, tupleGe, tupleLt, Bool.not_eq_true',
    Bool.or_eq_false_iff, Bool.and_eq_false_iff, decide_eq_false_iff_not, Bool.not_eq_false']
  simp only [decide_eq_true_eq]
  omega

/-- The window is made wider, on a console that can show two columns. -/
theorem expand_spec {api : Api} {minWidth : Int} (ha : Documented api minWidth) (hmin : minWidth ≤ 400)
    (font : Con → Con) (c : Con) (hf : Fine (font c).info) (hl : 2 ≤ (api.largest (font c)).x) :
    Fine (expand api font c).info ∧ (expand api font c).info.window.left = 0 ∧
    (expand api font c).info.window.left < (expand api font c).info.window.right ∧
    (expand api font c).info.window.top = (expand api font c).info.window.bottom := by
  have h11 : mk4 0 0 1 1 = ⟨0, 0, 0, 0⟩ := by decide
  have h21 : mk4 0 0 2 1 = ⟨0, 0, 1, 0⟩ := by decide
  unfold expand
  generalize font c = F at *
  have hly := (ha.largest F).2
  obtain ⟨fx, fy, ⟨f1, f2, f3, f4, f5, f6⟩, f7, f8⟩ := hf
  have e1 := ha.window F ⟨0, 0, 0, 0⟩ ⟨fx, fy, ⟨f1, f2, f3, f4, f5, f6⟩, f7, f8⟩
    ⟨by simp, by simp, by simp only; omega, by simp, by simp, by simp only; omega⟩ (by simp only; omega)
    (by simp only; omega)
  have l1 := ha.stays F ⟨0, 0, 0, 0⟩
  rw [h11, h21]
  generalize api.setWindow F ⟨0, 0, 0, 0⟩ = T at *
  have hT : Fine T.info := by
    rw [e1]
    exact ⟨fx, fy, ⟨by simp, by simp, by simp only; omega, by simp, by simp, by simp only; omega⟩, f7, f8⟩
  have tw : T.info.window = ⟨0, 0, 0, 0⟩ := by rw [e1]
  obtain ⟨_, g1, g2, _, _⟩ := ha.size T ⟨400, 1⟩ hT (by simp) (by simp) (by rw [tw]; simp) (by rw [tw]; simp) hmin
  have l2 := ha.stays' T ⟨400, 1⟩
  generalize (api.setSize T ⟨400, 1⟩).1 = V at *
  have hV : ∀ k, 1 ≤ k → k ≤ 400 → k ≤ (api.largest F).x → ∀ V' : Con, Fine V'.info → V'.info.size = ⟨400, 1⟩ →
      api.largest V' = api.largest F →
      api.setWindow V' ⟨0, 0, k - 1, 0⟩ = { V' with info := { V'.info with window := ⟨0, 0, k - 1, 0⟩ } } ∧
      Fine (api.setWindow V' ⟨0, 0, k - 1, 0⟩).info := by
    intro k k1 k2 k3 V' q1 q2 q3
    have hin : Inside ⟨0, 0, k - 1, 0⟩ V'.info.size := by
      rw [q2]
      exact ⟨by simp, by simp only; omega, by simp only; omega, by simp, by simp, by simp⟩
    have := ha.window V' ⟨0, 0, k - 1, 0⟩ q1 hin (by rw [q3]; simp only; omega) (by rw [q3]; simp only; omega)
    refine ⟨this, ?_⟩
    rw [this]
    exact ⟨q1.x, q1.y, hin, q1.cursorX, q1.cursorY⟩
  obtain ⟨a1, a2⟩ := hV 2 (by omega) (by omega) hl V g2 g1 (by rw [l2, l1])
  have l3 := ha.stays V ⟨0, 0, 1, 0⟩
  simp only [show (2 : Int) - 1 = 1 by rfl] at a1 a2
  have a3 : (api.setWindow V ⟨0, 0, 1, 0⟩).info.size = ⟨400, 1⟩ := by rw [a1]; exact g1
  generalize api.setWindow V ⟨0, 0, 1, 0⟩ = U at *
  have l4 : api.largest U = api.largest F := by rw [l3, l2, l1]
  have hm : mk4 0 0 (min (api.largest U).x U.info.size.x) 1 = ⟨0, 0, min (api.largest F).x 400 - 1, 0⟩ := by
    rw [l4, a3]
    simp only [mk4, Rect.mk.injEq, short]
    omega
  simp only [hm]
  obtain ⟨b1, b2⟩ := hV (min (api.largest F).x 400) (by omega) (by omega) (by omega) U a2 a3 l4
  refine ⟨b2, ?_⟩
  rw [b1]
  refine ⟨rfl, ?_, rfl⟩
  simp only
  omega

/-- The object that freezes the console when the agent starts. -/
def Unfrozen (s : Win32Console.State) : Prop := s.frozen = false

theorem testMark_spec {api : Api} {minWidth : Int} (ha : Documented api minWidth) (on : Con → Msg → Con) (s : State)
    (hs : Unfrozen s.console) (hc : Fine s.con.info)
    (h1 : s.con.info.window.left ≠ s.con.info.window.right ∨ s.con.info.window.top ≠ s.con.info.window.bottom) :
    ∃ s', testMark api on s = some s' ∧ (OldConsole on → s'.newW10 = false) ∧ (NewConsole on → s'.newW10 = true) ∧
      Unfrozen s'.console ∧ s'.console.freezeUsesMark = false ∧
      s'.console.sent = s.console.sent ++ [.mark, .escape] ∧
      (OldConsole on ∨ NewConsole on → Fine s'.con.info ∧ s'.con.info.cursor = ⟨0, 0⟩ ∧
        s'.con.info.size = s.con.info.size) := by
  obtain ⟨x1, x2, ⟨w1, w2, w3, w4, w5, w6⟩, c1, c2⟩ := hc
  have hcur := ha.cursor' s.con ⟨s.con.info.window.right, s.con.info.window.bottom⟩
    ⟨x1, x2, ⟨w1, w2, w3, w4, w5, w6⟩, c1, c2⟩ w2 (Int.le_refl _) w5 (Int.le_refl _)
  unfold Unfrozen at hs
  unfold testMark
  simp only [hs, Bool.false_eq_true, if_false, freeze, setFrozen, if_true, Bool.true_eq_false, List.drop_left,
    List.foldl_cons, List.foldl_nil, hcur]
  refine ⟨_, rfl, ?_, ?_, rfl, rfl, ?_, ?_⟩
  · intro ho
    simp only [ho.mark, decide_eq_false_iff_not, Coord.mk.injEq]
    omega
  · intro hn
    simp only [hn.mark, decide_true]
  · simp
  · intro hk
    have hm : ∀ c : Con, Fine c.info → Fine (on c .mark).info ∧ (on c .mark).info.size = c.info.size := by
      intro c hf
      rcases hk with ho | hn
      · rw [ho.mark]
        obtain ⟨x1, x2, ⟨w1, w2, w3, w4, w5, w6⟩, c1, c2⟩ := hf
        exact ⟨⟨x1, x2, ⟨w1, w2, w3, w4, w5, w6⟩, ⟨by simp only; omega, by simp only; omega⟩,
          ⟨by simp only; omega, by simp only; omega⟩⟩, rfl⟩
      · rw [hn.mark]
        exact ⟨hf, rfl⟩
    have he : EndsSelection on := by
      rcases hk with ho | hn
      · exact ho.escape
      · exact hn.escape
    obtain ⟨m1, m2⟩ := hm { s.con with info := { s.con.info with
        cursor := ⟨s.con.info.window.right, s.con.info.window.bottom⟩ } }
      ⟨x1, x2, ⟨w1, w2, w3, w4, w5, w6⟩, ⟨by simp only; omega, by simp only; omega⟩,
        ⟨by simp only; omega, by simp only; omega⟩⟩
    obtain ⟨n1, n2⟩ := he _ m1
    generalize on (on _ .mark) .escape = E at *
    rw [m2] at n2
    simp only at n2
    obtain ⟨p1, p2, p3, _, _⟩ := ha.cursor E ⟨0, 0⟩ n1 (by simp) (by rw [n2]; simp only; omega) (by simp)
      (by rw [n2]; simp only; omega)
    exact ⟨p1, p2, by rw [p3, n2]⟩

/-- On Windows 8 and later the agent finds out whether it has the new console of Windows 10, for every size and
position of the window and of the buffer.  Afterwards the console runs again, will be frozen by "select all"
(not by "mark"), and its cursor is at the origin. -/
theorem C78_detects (r : Release) (v : Nat × Nat) (hr : Reports r v) (h8 : Release.age .eight ≤ r.age)
    (api : Api) (minWidth : Int) (ha : Documented api minWidth) (hmin : minWidth ≤ 400) (on : Con → Msg → Con)
    (font : Con → Con) (s : State) (hs : Unfrozen s.console) (hc : Fine s.con.info)
    (hf : Fine (font s.con).info) (hl : 2 ≤ (api.largest (font s.con)).x) (hk : OldConsole on ∨ NewConsole on) :
    ∃ s', detectNewWindows10Console v api on font s = some s' ∧
      (s'.newW10 = true ↔ NewConsole on) ∧
      Unfrozen s'.console ∧ s'.console.freezeUsesMark = false ∧
      s'.console.sent = s.console.sent ++ [.mark, .escape] ∧
      Fine s'.con.info ∧ s'.con.info.cursor = ⟨0, 0⟩ := by
  have h8' := (C78_version r v hr).2.2.2 h8
  unfold detectNewWindows10Console
  simp only [h8', Bool.not_true, Bool.false_eq_true, if_false]
  have key : ∀ s0 : State, s0.console = s.console → Fine s0.con.info →
      (s0.con.info.window.left ≠ s0.con.info.window.right ∨ s0.con.info.window.top ≠ s0.con.info.window.bottom) →
      ∃ s', testMark api on s0 = some s' ∧ (s'.newW10 = true ↔ NewConsole on) ∧
        Unfrozen s'.console ∧ s'.console.freezeUsesMark = false ∧
        s'.console.sent = s.console.sent ++ [.mark, .escape] ∧
        Fine s'.con.info ∧ s'.con.info.cursor = ⟨0, 0⟩ := by
    intro s0 e0 f0 g0
    obtain ⟨s', k1, k2, k3, k4, k5, k6, k7⟩ := testMark_spec ha on s0 (by rw [e0]; exact hs) f0 g0
    refine ⟨s', k1, ⟨fun hn => ?_, k3⟩, k4, k5, by rw [k6, e0], (k7 hk).1, (k7 hk).2.1⟩
    rcases hk with ho | hn'
    · rw [k2 ho] at hn; cases hn
    · exact hn'
  split
  · obtain ⟨e1, e2, e3, e4⟩ := expand_spec ha hmin font s.con hf hl
    rw [if_pos e3]
    exact key { s with con := expand api font s.con } rfl e1 (.inl (by simp only; omega))
  · rename_i hw
    refine key s rfl hc ?_
    by_cases g : s.con.info.window.left = s.con.info.window.right
    · exact .inr fun g' => hw ⟨g, g'⟩
    · exact .inl g

/-- Before Windows 8 nothing is tried: there is no new console. -/
theorem C78_older (r : Release) (v : Nat × Nat) (hr : Reports r v) (h8 : r.age < Release.age .eight)
    (api : Api) (on : Con → Msg → Con) (font : Con → Con) (s : State) :
    detectNewWindows10Console v api on font s = some s := by
  have h := (C78_version r v hr).2.2
  have : isAtLeastWindows8 v = false := by
    cases hb : isAtLeastWindows8 v
    · rfl
    · have := h.1 hb; omega
  simp [detectNewWindows10Console, this]

/-! ## Concrete consoles -/

/-- An old console, without memory: Escape leaves the cursor. -/
private def oldDemo : Con → Msg → Con
  | c, .mark => { c with info := { c.info with cursor := ⟨c.info.window.left, c.info.window.top⟩ } }
  | c, _ => c

private def newDemo : Con → Msg → Con := fun c _ => c

example : OldConsole oldDemo ∧ NewConsole newDemo :=
  ⟨⟨fun _ => rfl, fun _ h => ⟨h, rfl⟩⟩, ⟨fun _ => rfl, fun _ h => ⟨h, rfl⟩⟩⟩

private def startDemo (w : Rect) : State :=
  ⟨⟨false, false, [], []⟩, false, ⟨fun _ _ => ⟨0x20, 7⟩, ⟨⟨80, 300⟩, w, ⟨5, 3⟩⟩⟩⟩

example : Fine (startDemo ⟨0, 7, 79, 31⟩).con.info ∧ Unfrozen (startDemo ⟨0, 7, 79, 31⟩).console := by
  refine ⟨⟨by decide, by decide, ?_, by decide, by decide⟩, rfl⟩
  simp [Inside, startDemo]

/-- An ordinary window, one row only, one cell only: both kinds are told apart. -/
example : ([⟨0, 7, 79, 31⟩, ⟨0, 7, 79, 7⟩, ⟨4, 7, 4, 31⟩, ⟨4, 7, 4, 7⟩] : List Rect).map (fun w =>
      [(detectNewWindows10Console (6, 2) sizesDemoApi oldDemo id (startDemo w)).map (·.newW10),
       (detectNewWindows10Console (10, 0) sizesDemoApi newDemo id (startDemo w)).map (·.newW10)]) =
    List.replicate 4 [some false, some true] := by decide +kernel

/-- The window of one cell was made wider. -/
example : (detectNewWindows10Console (10, 0) sizesDemoApi newDemo id (startDemo ⟨4, 7, 4, 7⟩)).map
    (·.con.info) = some ⟨⟨400, 1⟩, ⟨0, 0, 199, 0⟩, ⟨0, 0⟩⟩ := by decide +kernel

end Winpty.Props
