import Verif.Lemmas.AgentTyping
import Verif.Props.ConsoleKeys
import Verif.Props.ConsoleReplies
import Verif.Props.ConsoleMouse

/-! # The record of a session as a history of operations on `ConsoleInput` -/
namespace Winpty.AgentInput
open Winpty.ConsoleInput (Out Rect Obj Op St Rec exec execAll written sent exec_out writeInput)
open Winpty.Spec Winpty.Spec.Typing Winpty.Unicode
open Winpty.InputMap (Node Key setAll newNode defaultRegs)
open Winpty.Props (windowAfter)

/-- The mouse mode does not matter to the operations. -/
theorem exec_anyMode (cfg : Cfg) (o : Obj) (op : Op) (m : Nat) :
    exec cfg.sys cfg.root cfg.env { o with mouseMode := m } op =
      (exec cfg.sys cfg.root cfg.env o op).map fun o => { o with mouseMode := m } := by
  cases op with
  | mode _ => rfl
  | window _ => rfl
  | write now bytes =>
    simp only [exec, writeInput]
    split
    · rfl
    · cases ConsoleInput.doWrite cfg.sys cfg.root cfg.env false o.pos o.st (o.queue ++ bytes) with
      | none => rfl
      | some x =>
        simp only
        split <;> rfl
  | poll now =>
    simp only [exec, ConsoleInput.flushIncompleteEscapeCode]
    split
    · cases ConsoleInput.doWrite cfg.sys cfg.root cfg.env true o.pos o.st o.queue with
      | none => rfl
      | some x => rfl
    · rfl

theorem execAll_anyMode (cfg : Cfg) (m : Nat) : ∀ (ops : List Op) (o : Obj),
    execAll cfg.sys cfg.root cfg.env { o with mouseMode := m } ops =
      (execAll cfg.sys cfg.root cfg.env o ops).map fun o => { o with mouseMode := m }
  | [], o => rfl
  | op :: ops, o => by
    simp only [execAll]
    rw [exec_anyMode]
    cases exec cfg.sys cfg.root cfg.env o op with
    | none => rfl
    | some o1 => exact execAll_anyMode cfg m ops o1

theorem execAll_snoc (cfg : Cfg) : ∀ (ops : List Op) (o o1 o2 : Obj) (op : Op),
    execAll cfg.sys cfg.root cfg.env o ops = some o1 → exec cfg.sys cfg.root cfg.env o1 op = some o2 →
    execAll cfg.sys cfg.root cfg.env o (ops ++ [op]) = some o2
  | [], o, o1, o2, op, h, g => by
    cases h
    simp only [List.nil_append, execAll, g]; rfl
  | a :: ops, o, o1, o2, op, h, g => by
    simp only [execAll, List.cons_append] at h ⊢
    cases e : exec cfg.sys cfg.root cfg.env o a with
    | none => rw [e] at h; cases h
    | some o' =>
      rw [e] at h
      exact execAll_snoc cfg ops o' o1 o2 op h g

theorem written_snoc (ops : List Op) (op : Op) : written (ops ++ [op]) = written ops ++ written [op] := by
  induction ops with
  | nil => rfl
  | cons a ops ih => cases a <;> simp [written, ih]

/-- A session's record is that of a history of operations. -/
structure Ops (cfg : Cfg) (hist : List Entry) (o : Obj) (ops : List Op) : Prop where
  run : execAll cfg.sys cfg.root cfg.env { mouseMode := cfg.mouseMode } ops = some o
  bytes : written ops = bytesRead hist
  mode : ∀ m, .mode m ∈ ops → .mode m ∈ hist
  window : ∀ r, .window r ∈ ops → .window r ∈ hist
  after : windowAfter ops = lastWindow hist
  wants : Props.wantsMouse ops = Typing.wantsMouse hist

theorem ops_of_replays {cfg : Cfg} {hist : List Entry} {o : Obj}
    (h : Replays cfg { mouseMode := cfg.mouseMode } hist o) : ∃ ops, Ops cfg hist o ops := by
  induction h with
  | start => exact ⟨[], rfl, rfl, by simp, by simp, rfl, rfl⟩
  | size hist o c r h ih =>
    obtain ⟨ops, a1, a2, a3, a4, a5, a6⟩ := ih
    refine ⟨ops, a1, ?_, ?_, ?_, ?_, ?_⟩
    · rw [bytesRead_append]; simpa [bytesRead] using a2
    · intro m hm; exact List.mem_append_left _ (a3 m hm)
    · intro m hm; exact List.mem_append_left _ (a4 m hm)
    · rw [a5]; simp [lastWindow]
    · rw [a6]; simp [Typing.wantsMouse, lastMode]
  | op hist o op o' h e ih =>
    obtain ⟨ops, a1, a2, a3, a4, a5, a6⟩ := ih
    obtain ⟨xs, hx⟩ : ∃ xs : List Out, delivered o o' = xs.map .event := ⟨_, rfl⟩
    refine ⟨ops ++ [op], execAll_snoc cfg ops _ _ _ op a1 e, ?_, ?_, ?_, ?_, ?_⟩
    · rw [written_snoc, a2, bytesRead_append, hx]
      cases op <;> simp [written, entryOf, bytesRead, bytesRead_events]
    · intro m hm
      rcases List.mem_append.1 hm with hm | hm
      · exact List.mem_append_left _ (a3 m hm)
      · rw [List.mem_singleton] at hm; subst hm; simp [entryOf]
    · intro m hm
      rcases List.mem_append.1 hm with hm | hm
      · exact List.mem_append_left _ (a4 m hm)
      · rw [List.mem_singleton] at hm; subst hm; simp [entryOf]
    · have : hist ++ entryOf op :: delivered o o' = (hist ++ [entryOf op]) ++ xs.map .event := by rw [hx]; simp
      rw [this, lastWindow_events]
      unfold windowAfter at a5 ⊢
      rw [List.foldl_append, a5]
      cases op <;> simp [entryOf, lastWindow]
    · have : hist ++ entryOf op :: delivered o o' = (hist ++ [entryOf op]) ++ xs.map .event := by rw [hx]; simp
      rw [this]
      unfold Typing.wantsMouse
      rw [lastMode_events]
      unfold Props.wantsMouse at a6 ⊢
      rw [List.foldl_append, a6]
      cases op <;> simp [entryOf, Typing.wantsMouse, lastMode]

/-- The same history on an object with the default mouse mode. -/
theorem Ops.plain {cfg : Cfg} {hist : List Entry} {o : Obj} {ops : List Op} (h : Ops cfg hist o ops) :
    ∃ o1, execAll cfg.sys cfg.root cfg.env {} ops = some o1 ∧ o = { o1 with mouseMode := cfg.mouseMode } := by
  have h1 := h.run
  have e : ({ mouseMode := cfg.mouseMode } : Obj) = { ({} : Obj) with mouseMode := cfg.mouseMode } := rfl
  rw [e, execAll_anyMode] at h1
  cases e1 : execAll cfg.sys cfg.root cfg.env {} ops with
  | none => rw [e1] at h1; cases h1
  | some o1 =>
    rw [e1] at h1
    exact ⟨o1, rfl, (Option.some.inj h1).symm⟩

theorem mouseRecords_mem {x y : Int} {b f c : Nat} (l : List Out) (h : .record (.mouse x y b f c) ∈ l) :
    .mouse x y b f c ∈ mouseRecords l := by
  unfold mouseRecords
  exact List.mem_filterMap.2 ⟨_, h, rfl⟩

/-- Each mouse event lies in the window found last before it, and the mouse was wanted by the mode found
last before it. -/
theorem mouse_of_replays {cfg : Cfg} (hr : setAll newNode defaultRegs = some cfg.root) {hist : List Entry} {o : Obj}
    (h : Replays cfg { mouseMode := cfg.mouseMode } hist o) :
    (∀ b ∈ bytesRead hist, b < 256) → (∀ r, .window r ∈ hist → WindowOk r) →
    ∀ pre x y b f c post, hist = pre ++ .event (.record (.mouse x y b f c)) :: post →
      Typing.wantsMouse pre = true ∧ (lastWindow pre).left ≤ x ∧ x ≤ (lastWindow pre).right ∧
      (lastWindow pre).top ≤ y ∧ y ≤ (lastWindow pre).bottom := by
  induction h with
  | start => intro _ _ pre x y b f c post e; simp at e
  | size hist o c r h ih =>
    intro hb hw pre x y b f c post e
    rcases List.append_eq_append_iff.1 e with ⟨as, e1, e2⟩ | ⟨bs, e1, e2⟩
    · cases as with
      | nil => simp at e2
      | cons z as => simp at e2
    · cases bs with
      | nil => simp at e2
      | cons z bs =>
        rw [List.cons_append, List.cons.injEq] at e2
        obtain ⟨rfl, _⟩ := e2
        exact ih (fun b hm => hb b (by rw [bytesRead_append]; exact List.mem_append_left _ hm))
          (fun r hm => hw r (List.mem_append_left _ hm)) pre x y b f c bs e1
  | op hist o op o' h e0 ih =>
    intro hb hw pre x y b f c post e
    have hb1 : ∀ b ∈ bytesRead hist, b < 256 :=
      fun b hm => hb b (by rw [bytesRead_append]; exact List.mem_append_left _ hm)
    have hw1 : ∀ r, .window r ∈ hist → WindowOk r := fun r hm => hw r (List.mem_append_left _ hm)
    rcases List.append_eq_append_iff.1 e with ⟨as, e1, e2⟩ | ⟨bs, e1, e2⟩
    · -- the event was delivered by this operation
      have hdel : .event (.record (.mouse x y b f c)) ∈ delivered o o' ∧
          ∃ ys, as = entryOf op :: ys ∧ ∀ z ∈ ys, ∃ w, z = .event w := by
        cases as with
        | nil =>
          rw [List.nil_append, List.cons.injEq] at e2
          cases op <;> simp [entryOf] at e2
        | cons z ys =>
          rw [List.cons_append, List.cons.injEq] at e2
          refine ⟨by rw [e2.2]; simp, ys, by rw [e2.1], fun z hz => mem_delivered (o := o) (o' := o') ?_⟩
          rw [e2.2]; exact List.mem_append_left _ hz
      obtain ⟨hmem, ys, rfl, hys⟩ := hdel
      obtain ⟨ops, ho⟩ := ops_of_replays h
      obtain ⟨o1, r1, r2⟩ := ho.plain
      have hk := known_of_replays hr h hb1
      have hb2 : ∀ b ∈ written (ops ++ [op]), b < 256 := by
        rw [written_snoc, ho.bytes]
        intro b hm
        rcases List.mem_append.1 hm with hm | hm
        · exact hb1 b hm
        · refine hb b ?_
          rw [bytesRead_append]
          refine List.mem_append_right _ ?_
          cases op <;> simp [written, entryOf, bytesRead] at hm ⊢
          exact .inl hm
      obtain ⟨p, p', new, q1, q2, q3, q4, q5⟩ := Props.C13_in_window cfg.sys cfg.root hr cfg.env ops op hb2
        (fun r hm => hw1 r (ho.window r hm))
      rw [r1] at q1; cases q1
      have hst : o.st = o1.st := by rw [r2]
      have hst' : o'.st = p'.st := by
        rw [r2, exec_anyMode, q2] at e0
        cases e0; rfl
      obtain ⟨⟨ext, hext⟩, _⟩ := exec_out (ConsoleInput.default_holds hr) e0 hk.bytes
        (fun b hm => hb2 b (by rw [written_snoc]; exact List.mem_append_right _ hm)) hk.flushed
      have hnew : new = mouseRecords ext := by
        rw [← hst, ← hst', hext] at q3
        unfold mouseRecords at q3 ⊢
        rw [List.filterMap_append] at q3
        exact (List.append_cancel_left q3).symm
      have hin : .mouse x y b f c ∈ new := by
        rw [hnew]
        refine mouseRecords_mem _ ?_
        rw [delivered_eq hext] at hmem
        obtain ⟨w, hw, e⟩ := List.mem_map.1 hmem
        cases e
        exact (List.mem_filter.1 hw).1
      have hne : ext ≠ [] := by
        intro h0; rw [hnew, h0] at hin; cases hin
      have hfr : lastWindow pre = lastWindow hist ∧ Typing.wantsMouse pre = Typing.wantsMouse hist := by
        obtain ⟨xs, rfl⟩ : ∃ xs : List Out, ys = xs.map .event := by
          clear e e1 e2 hmem
          induction ys with
          | nil => exact ⟨[], rfl⟩
          | cons z ys ihy =>
            obtain ⟨w, rfl⟩ := hys _ List.mem_cons_self
            obtain ⟨xs, rfl⟩ := ihy (fun z hz => hys z (List.mem_cons_of_mem _ hz))
            exact ⟨w :: xs, rfl⟩
        have hp : pre = (hist ++ [entryOf op]) ++ xs.map .event := by rw [e1]; simp
        rw [hp]
        unfold Typing.wantsMouse
        rw [lastWindow_events, lastMode_events]
        cases op with
        | mode m =>
          cases e0
          exact absurd (List.self_eq_append_right.1 hext) hne
        | window m =>
          cases e0
          exact absurd (List.self_eq_append_right.1 hext) hne
        | write now bytes => simp [entryOf, lastWindow, lastMode]
        | poll now => simp [entryOf, lastWindow, lastMode]
      rw [hfr.1, hfr.2, ← ho.after, ← ho.wants]
      refine ⟨?_, q5 x y b f c hin⟩
      cases hwm : Props.wantsMouse ops with
      | true => rfl
      | false => rw [q4 hwm] at hin; cases hin
    · cases bs with
      | nil =>
        rw [List.nil_append, List.cons.injEq] at e2
        cases op <;> simp [entryOf] at e2
      | cons z bs =>
        rw [List.cons_append, List.cons.injEq] at e2
        obtain ⟨rfl, _⟩ := e2
        exact ih hb1 hw1 pre x y b f c bs e1

end Winpty.AgentInput
