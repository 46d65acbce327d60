import Verif.Spec.CtrlEvents
import Verif.Props.ConsoleVt

/-
C90: control events.  C91: key messages.
-/

namespace Winpty.Props

open Winpty.CtrlEvents Winpty.Spec.CtrlEvents

private theorem deliver_keeps (e : Nat) (p : Proc) :
    (deliver e p).ignores = p.ignores ∧ (deliver e p).handler = p.handler := by
  unfold deliver; split
  · exact ⟨rfl, rfl⟩
  · split <;> exact ⟨rfl, rfl⟩

/-- The agent's settings never change after its constructor. -/
private theorem step_keeps (c : Console) (o : Op) :
    (step c o).agent.ignores = c.agent.ignores ∧ (step c o).agent.handler = c.agent.handler := by
  cases o <;> simp only [step]
  case key => split <;> first | exact deliver_keeps _ _ | exact ⟨rfl, rfl⟩
  case spawn => split <;> exact ⟨rfl, rfl⟩
  case fork i => split <;> (try split) <;> exact ⟨rfl, rfl⟩
  case set i a b => split <;> (try split) <;> exact ⟨rfl, rfl⟩
  case generate i e =>
    split
    · split
      · exact deliver_keeps _ _
      · exact ⟨rfl, rfl⟩
    · exact ⟨rfl, rfl⟩
  case exit i => split <;> exact ⟨rfl, rfl⟩
  case close => exact deliver_keeps _ _

private theorem run_keeps (ops : List Op) : ∀ c : Console,
    (run c ops).agent.ignores = c.agent.ignores ∧ (run c ops).agent.handler = c.agent.handler := by
  induction ops with
  | nil => intro c; exact ⟨rfl, rfl⟩
  | cons o r ih =>
    intro c
    exact ⟨(ih (step c o)).1.trans (step_keeps c o).1, (ih (step c o)).2.trans (step_keeps c o).2⟩

private theorem step_alive {c : Console} {o : Op} (hi : c.agent.ignores = false) (hh : c.agent.handler 0 = true)
    (ho : OnlyCtrlC o) : (step c o).agent.alive = c.agent.alive := by
  have hd : (deliver 0 c.agent).alive = c.agent.alive := by
    unfold deliver
    split
    · rfl
    · rename_i h
      simp [hi, hh, ctrlCloseEvent]
      simpa using h
  cases o <;> simp only [step]
  case key => split <;> first | exact hd | rfl
  case spawn => split <;> rfl
  case fork i => split <;> (try split) <;> rfl
  case set i a b => split <;> (try split) <;> rfl
  case generate i e =>
    have : e = 0 := ho
    subst this
    split
    · split
      · exact hd
      · rfl
    · rfl
  case exit i => split <;> rfl
  case close => exact ho.elim

/-- The agent survives any number of Ctrl-C, typed or made by programs.  What is missing: other events that programs
can make, `C90_break_defect`. -/
theorem C90_survives_partial (inherited : Bool) (ops : List Op) (h : ∀ o ∈ ops, OnlyCtrlC o) :
    (run (construct (begin inherited)) ops).agent.alive = true := by
  have : ∀ (ops : List Op) (c : Console), (∀ o ∈ ops, OnlyCtrlC o) → c.agent.ignores = false →
      c.agent.handler 0 = true → (run c ops).agent.alive = c.agent.alive := by
    intro ops
    induction ops with
    | nil => intro c _ _ _; rfl
    | cons o r ih =>
      intro c ho hi hh
      have hk := step_keeps c o
      have := ih (step c o) (fun o' h' => ho o' (List.mem_cons_of_mem _ h')) (hk.1.trans hi) (by rw [hk.2]; exact hh)
      exact this.trans (step_alive hi hh (ho o List.mem_cons_self))
  rw [this ops _ h rfl rfl]
  rfl

/-- A program that makes a Ctrl-Break event for the processes of its console, and handles it, goes on, but the agent
is ended. -/
theorem C90_break_defect (inherited : Bool) : ∃ (ops : List Op) (p : Proc),
    (∀ o ∈ ops, match o with | .close => False | .exit _ => False | _ => True) ∧
    (run (construct (begin inherited)) ops).agent.alive = false ∧
    (run (construct (begin inherited)) ops).progs = [p] ∧ p.alive = true ∧ p.called = [1] := by
  refine ⟨[.spawn, .set 0 false (fun e => e == 1), .generate 0 1], ⟨true, false, fun e => e == 1, [1]⟩, ?_, ?_, ?_, rfl, rfl⟩
  · intro o ho
    simp only [List.mem_cons, List.not_mem_nil, or_false] at ho
    rcases ho with rfl | rfl | rfl <;> trivial
  · cases inherited <;> rfl
  · cases inherited <;> rfl

/-- Whatever the program that uses the library does with Ctrl-C, and whatever happened before, a program that the
agent starts does not ignore it, and has no handler yet. -/
theorem C90_child_default (inherited : Bool) (ops : List Op)
    (h : (run (construct (begin inherited)) ops).agent.alive = true) :
    ∃ p, (step (run (construct (begin inherited)) ops) .spawn).progs =
      (run (construct (begin inherited)) ops).progs ++ [p] ∧
      p.alive = true ∧ p.ignores = false ∧ (∀ e, p.handler e = false) ∧ p.called = [] := by
  refine ⟨Proc.new (run (construct (begin inherited)) ops).agent.ignores, ?_, rfl, ?_, fun _ => rfl, rfl⟩
  · simp only [step, h, if_true]
  · exact (run_keeps ops _).1

/-- When Ctrl-C is typed, every program on the console is interrupted as it has asked for, all of them by the same
key, and the agent goes on. -/
theorem C90_interrupt (inherited : Bool) (ops : List Op)
    (h : (run (construct (begin inherited)) ops).agent.alive = true) :
    (step (run (construct (begin inherited)) ops) .key).agent.alive = true ∧
    (step (run (construct (begin inherited)) ops) .key).progs.length =
      (run (construct (begin inherited)) ops).progs.length ∧
    ∀ (i : Nat) (p p' : Proc), (run (construct (begin inherited)) ops).progs[i]? = some p →
      (step (run (construct (begin inherited)) ops) .key).progs[i]? = some p' → Interrupted p p' := by
  have hk := run_keeps ops (construct (begin inherited))
  have hi : (run (construct (begin inherited)) ops).agent.ignores = false := hk.1
  have hh : (run (construct (begin inherited)) ops).agent.handler 0 = true := by rw [hk.2]; rfl
  generalize run (construct (begin inherited)) ops = c at *
  refine ⟨(step_alive hi hh (o := .key) trivial).trans h, ?_, ?_⟩
  · simp [step, h, broadcast]
  · intro i p p' hp hp'
    simp only [step, h, if_true, broadcast, List.getElem?_map, hp, Option.map_some, Option.some.injEq] at hp'
    subst hp'
    unfold Interrupted deliver
    by_cases h1 : p.alive = false
    · simp [h1]
    · by_cases h2 : p.ignores = true
      · simp [h2, ctrlCEvent]
      · simp [h1, h2, ctrlCEvent, ctrlCloseEvent]

/-- When the console's window is closed, which is how the agent ends itself, the agent and all programs end. -/
theorem C90_close (inherited : Bool) (ops : List Op) :
    (step (run (construct (begin inherited)) ops) .close).agent.alive = false ∧
    ∀ p ∈ (step (run (construct (begin inherited)) ops) .close).progs, p.alive = false := by
  have hd : ∀ p : Proc, (deliver ctrlCloseEvent p).alive = false := by
    intro p
    unfold deliver
    split
    · assumption
    · simp [ctrlCEvent, ctrlCloseEvent]
  refine ⟨hd _, ?_⟩
  intro p hp
  simp only [step, broadcast, List.mem_map] at hp
  obtain ⟨q, _, rfl⟩ := hp
  exact hd q

/-- Three programs: the first handles Ctrl-C, the second, which it starts, ignores it, the third has the default. -/
private def ctrlOps : List Op :=
  [.spawn, .set 0 false (fun e => e == 0), .fork 0, .set 1 true (fun _ => false), .fork 0, .key]

example : (∀ o ∈ ctrlOps, OnlyCtrlC o) ∧
    ((run (construct (begin true)) ctrlOps).progs.map (fun p => (p.alive, p.called)) =
      [(true, [0]), (true, []), (false, [0])]) ∧ (run (construct (begin true)) ctrlOps).agent.alive = true := by
  refine ⟨?_, by decide, by decide⟩
  intro o ho
  simp only [ctrlOps, List.mem_cons, List.not_mem_nil, or_false] at ho
  rcases ho with rfl | rfl | rfl | rfl | rfl | rfl <;> trivial

/-! ## Key messages -/

private theorem key_bits (s : Nat) (hs : s < 256) :
    (s <<< 16) ||| 1 ||| 0 = s * 65536 + 1 ∧ (s <<< 16) ||| 1 ||| 0xc0000000 = s * 65536 + 1 + 0xc0000000 := by
  have : ∀ s : Fin 256, (s.val <<< 16) ||| 1 ||| 0 = s.val * 65536 + 1 ∧
      (s.val <<< 16) ||| 1 ||| 0xc0000000 = s.val * 65536 + 1 + 0xc0000000 := by decide +kernel
  exact this ⟨s, hs⟩

/-- The two messages for a key are those of a key that is pressed once and released: with the scan code of the
keyboard, or 0 if it does not fit. -/
theorem C91_press (map : Nat → Nat) (window vk : Nat) :
    Press window vk (if map vk < 256 then map vk else 0) (sendKeyMessage map window true vk)
      (sendKeyMessage map window false vk) := by
  have hs : (if map vk > 255 then 0 else map vk) = if map vk < 256 then map vk else 0 := by
    by_cases h : map vk < 256
    · rw [if_pos h, if_neg (by omega)]
    · rw [if_neg h, if_pos (by omega)]
  have hl : (if map vk < 256 then map vk else 0) < 256 := by split <;> omega
  unfold Press sendKeyMessage
  simp only [hs, if_true, Bool.false_eq_true, if_false]
  generalize (if map vk < 256 then map vk else 0) = s at *
  obtain ⟨b1, b2⟩ := key_bits s hl
  rw [b1, b2]
  refine ⟨by trivial, by trivial, rfl, rfl, by trivial, by trivial, by omega, by omega, ?_, ?_⟩
  · unfold keyParam
    have e1 : (s * 65536 + 1) % 65536 = 1 := by omega
    have e2 : (s * 65536 + 1) / 65536 % 256 = s := by omega
    have e3 : (s * 65536 + 1) / 2 ^ 24 % 2 = 0 := by omega
    have e4 : (s * 65536 + 1) / 2 ^ 29 % 2 = 0 := by omega
    have e5 : (s * 65536 + 1) / 2 ^ 30 % 2 = 0 := by omega
    have e6 : (s * 65536 + 1) / 2 ^ 31 % 2 = 0 := by omega
    rw [e1, e2, e3, e4, e5, e6]; rfl
  · unfold keyParam
    have e1 : (s * 65536 + 1 + 0xc0000000) % 65536 = 1 := by omega
    have e2 : (s * 65536 + 1 + 0xc0000000) / 65536 % 256 = s := by omega
    have e3 : (s * 65536 + 1 + 0xc0000000) / 2 ^ 24 % 2 = 0 := by omega
    have e4 : (s * 65536 + 1 + 0xc0000000) / 2 ^ 29 % 2 = 0 := by omega
    have e5 : (s * 65536 + 1 + 0xc0000000) / 2 ^ 30 % 2 = 1 := by omega
    have e6 : (s * 65536 + 1 + 0xc0000000) / 2 ^ 31 % 2 = 1 := by omega
    rw [e1, e2, e3, e4, e5, e6]; rfl

example : Press 5 38 72 (sendKeyMessage (fun _ => 72) 5 true 38) (sendKeyMessage (fun _ => 72) 5 false 38) :=
  C91_press (fun _ => 72) 5 38

private theorem messages_append (map : Nat → Nat) (window : Nat) (a b : List ConsoleInput.Out) :
    messages map window (a ++ b) = messages map window a ++ messages map window b := by
  induction a with
  | nil => rfl
  | cons x r ih => cases x <;> simp [messages, ih]

private theorem messages_records (map : Nat → Nat) (window : Nat) (l : List ConsoleInput.Rec) :
    messages map window (l.map .record) = [] := by
  induction l with
  | nil => rfl
  | cons x r ih => simp [messages, ih]

private theorem messages_sent (map : Nat → Nat) (window : Nat) (s : ConsoleInput.St) :
    messages map window (ConsoleInput.sent s) = messages map window s.out := by
  unfold ConsoleInput.sent; rw [messages_append, messages_records, List.append_nil]

/-- Whatever is typed, in whatever pieces, and however the console's mode changes, the messages sent to the window
are those of keys pressed and released one after another, and only of the six keys. -/
theorem C91_messages (map : Nat → Nat) (window : Nat) (sys : ConsoleInput.Sys) (root : InputMap.Node)
    (hr : InputMap.setAll InputMap.newNode InputMap.defaultRegs = some root)
    (env : Nat → ConsoleInput.Env) (ops : List ConsoleInput.Op) (hb : ∀ b ∈ ConsoleInput.written ops, b < 256) :
    ∃ o, ConsoleInput.execAll sys root env {} ops = some o ∧ Presses map window (messages map window o.st.out) := by
  obtain ⟨o, ho⟩ := ConsoleInput.execAll_total sys root env {} ops
  refine ⟨o, ho, ?_⟩
  refine ConsoleInput.execAll_inv (ConsoleInput.default_holds hr)
    (fun s => Presses map window (messages map window s.out))
    (o := {}) (o' := o) (ops := ops) (sys := sys) (env := env) ?_ ?_ ?_ hb ?_ ?_ ho (by simp) ?_
  · intro e _ s s' hs heff
    obtain ⟨_, new, h4, h5⟩ := ConsoleInput.effect_added heff
    rw [← messages_sent, h4, messages_append, messages_sent]
    cases h5 with
    | nothing => simpa [messages] using hs
    | ctrlC => simpa [messages] using hs
    | mouse => simpa [messages] using hs
    | message vk h ha => exact .snoc vk hs ((arrow_iff vk).mp ha) (C91_press map window vk)
    | press vk dn up w vtc vts h hd hu => rw [messages_records, List.append_nil]; exact hs
  · intro s hs
    exact (show Presses map window (messages map window (s.out ++ s.records.map .record)) by
      rw [messages_append, messages_records, List.append_nil]; exact hs)
  · intro s hs _ _
    exact (show Presses map window (messages map window (s.out ++ [.dsr])) by
      rw [messages_append]; simpa [messages] using hs)
  · intro m s _ hs; exact hs
  · intro r s _ hs; exact hs
  · exact .nil

/-- A console that never asked for VT input gets no such messages: all keys are delivered as records. -/
theorem C91_no_messages (map : Nat → Nat) (window : Nat) (sys : ConsoleInput.Sys) (root : InputMap.Node)
    (hr : InputMap.setAll InputMap.newNode InputMap.defaultRegs = some root)
    (env : Nat → ConsoleInput.Env) (ops : List ConsoleInput.Op) (hb : ∀ b ∈ ConsoleInput.written ops, b < 256)
    (hm : ∀ m, .mode m ∈ ops → m &&& 0x200 = 0) :
    ∃ o, ConsoleInput.execAll sys root env {} ops = some o ∧ messages map window o.st.out = [] := by
  obtain ⟨o, ho⟩ := ConsoleInput.execAll_total sys root env {} ops
  refine ⟨o, ho, ?_⟩
  refine (ConsoleInput.execAll_inv (ConsoleInput.default_holds hr)
    (fun s => messages map window s.out = [] ∧ s.escapeInputEnabled = false)
    (o := {}) (o' := o) (ops := ops) (sys := sys) (env := env) ?_ ?_ ?_ hb ?_ ?_ ho (by simp) ⟨rfl, rfl⟩).1
  · intro e _ s s' ⟨hs, hf⟩ heff
    obtain ⟨h3, new, h4, h5⟩ := ConsoleInput.effect_added heff
    refine ⟨?_, h3.trans hf⟩
    rw [← messages_sent, h4, messages_append, messages_sent, hs]
    cases h5 with
    | nothing => rfl
    | ctrlC => rfl
    | mouse => rfl
    | message vk h ha => rw [hf] at h; cases h
    | press vk dn up w vtc vts h hd hu => rw [messages_records]; rfl
  · intro s ⟨hs, hf⟩
    exact ⟨(show messages map window (s.out ++ s.records.map .record) = [] by
      rw [messages_append, messages_records, List.append_nil]; exact hs), hf⟩
  · intro s ⟨hs, hf⟩ _ _
    exact ⟨(show messages map window (s.out ++ [.dsr]) = [] by rw [messages_append, hs]; rfl), hf⟩
  · intro m s hmem ⟨hs, _⟩
    exact ⟨hs, by simp [ConsoleInput.updateInputFlags, ConsoleInput.has, hm m hmem]⟩
  · intro r s _ hs; exact hs

/-- Up, on a console that asked for VT input. -/
example (root : InputMap.Node) (hr : InputMap.setAll InputMap.newNode InputMap.defaultRegs = some root) :
    ∃ o, ConsoleInput.execAll ⟨fun _ => -1⟩ root (fun _ => ⟨0, 0, 0⟩) {} [.mode 0x200, .write 5 [27, 91, 65]] = some o ∧
      Presses (fun _ => 72) 5 (messages (fun _ => 72) 5 o.st.out) :=
  C91_messages _ 5 _ root hr _ _ (by decide)

end Winpty.Props
