import Verif.Spec.AgentInput
import Verif.Props.ConsoleMeaning
import Verif.Props.ConsolePending
import Verif.Props.ConsoleReplies
import Verif.Props.ConsoleMouse
import Verif.Props.EventLoop

/-! # The agent with its `ConsoleInput`: the record of a session and what it determines -/
namespace Winpty.ConsoleInput
open Winpty.Unicode Winpty.InputMap Winpty.Spec Winpty.Props

/-! ## What `ConsoleInput` delivers is only added to -/

theorem press_out (s : St) (vk dn up w vtc vts : Nat) :
    ∃ new, (appendKeyPress s vk dn up w vtc vts).out = s.out ++ new := by
  rw [appendKeyPress_eq]
  split
  · exact ⟨_, List.append_assoc _ _ _⟩
  · exact ⟨[], by simp⟩

theorem effect_out {sys : Sys} {env : Env} {item : List Nat} {s s' : St}
    (h : Effect sys env item s s') : ∃ new, s'.out = s.out ++ new := by
  cases h with
  | ctrlC => exact ⟨_, List.append_assoc _ _ _⟩
  | report => exact ⟨[], by simp⟩
  | skip => exact ⟨[], by simp⟩
  | mouse r hm =>
    refine ⟨[], ?_⟩
    rw [List.append_nil]
    unfold handleMouse pushMouse
    simp only
    repeat' split
    all_goals rfl
  | key k h => exact press_out _ _ _ _ _ _ _
  | char c alt hc hi =>
    cases alt with
    | false => rw [appendChar_eq]; exact press_out _ _ _ _ _ _ _
    | true => rw [appendChar_alt_eq]; exact press_out _ _ _ _ _ _ _

/-- An operation adds to what is delivered, leaves nothing undelivered and keeps bytes in the queue. -/
theorem exec_out {sys : Sys} {root : Node} (hr : Holds root table) {env : Nat → Env} {o o' : Obj} {op : Op}
    (h : exec sys root env o op = some o') (hq : ∀ b ∈ o.queue, b < 256) (hb : ∀ b ∈ written [op], b < 256)
    (hrec : o.st.records = []) :
    (∃ new, o'.st.out = o.st.out ++ new) ∧ o'.st.records = [] ∧ (∀ b ∈ o'.queue, b < 256) ∧
      o'.mouseMode = o.mouseMode := by
  obtain ⟨h1, h2⟩ := exec_inv hr (fun s => ∃ new, s.out = o.st.out ++ new)
    (fun e item s s' ⟨n, hn⟩ he => by
      obtain ⟨n', hn'⟩ := effect_out he
      exact ⟨n ++ n', by rw [hn', hn, List.append_assoc]⟩)
    (fun s ⟨n, hn⟩ => ⟨n ++ s.records.map .record, by simp only [flushInputRecords, hn, List.append_assoc]⟩)
    (fun s ⟨n, hn⟩ _ _ => ⟨n ++ [.dsr], by simp only [hn, List.append_assoc]⟩)
    (fun now bytes e b hm => by subst e; exact hb b (by simp [written, hm]))
    (fun m s _ hs => hs) (fun r s _ hs => hs) h hq ⟨[], by simp⟩
  refine ⟨h1, ?_, h2, ?_⟩
  · cases op with
    | mode m => cases h; exact hrec
    | window r => cases h; exact hrec
    | write now bytes =>
      simp only [exec] at h
      by_cases hne : bytes = []
      · subst hne; cases h; exact hrec
      · obtain ⟨_, _, o1, e1, _, _, _, _, _, e2⟩ := writeInput_spec sys root env now o bytes hne
        rw [h] at e1; cases e1; exact e2
    | poll now =>
      simp only [exec, flushIncompleteEscapeCode] at h
      split at h
      · obtain ⟨s', c, q', e1, _⟩ := doWrite_total sys root env true o.pos o.st o.queue
        rw [e1] at h; cases h; rfl
      · cases h; exact hrec
  · cases op with
    | mode m => cases h; rfl
    | window r => cases h; rfl
    | write now bytes =>
      simp only [exec] at h
      by_cases hne : bytes = []
      · subst hne; cases h; rfl
      · obtain ⟨_, _, o1, e1, _, _, _, _, e2, _⟩ := writeInput_spec sys root env now o bytes hne
        rw [h] at e1; cases e1; exact e2
    | poll now =>
      simp only [exec, flushIncompleteEscapeCode] at h
      split at h
      · obtain ⟨s', c, q', e1, _⟩ := doWrite_total sys root env true o.pos o.st o.queue
        rw [e1] at h; cases h; rfl
      · cases h; rfl

/-- What the console last said. -/
def flagsOf (s : St) : Rect × Bool × Bool × Bool × Bool :=
  (s.rect, s.mouseInputEnabled, s.quickEditEnabled, s.extendedEnabled, s.escapeInputEnabled)

theorem effect_flags {sys : Sys} {env : Env} {item : List Nat} {s s' : St}
    (h : Effect sys env item s s') : flagsOf s' = flagsOf s := by
  have press : ∀ (s : St) (vk dn up w vtc vts : Nat), flagsOf (appendKeyPress s vk dn up w vtc vts) = flagsOf s := by
    intro s vk dn up w vtc vts
    rw [appendKeyPress_eq]
    split <;> rfl
  cases h with
  | ctrlC => rfl
  | report => rfl
  | skip => rfl
  | mouse r hm =>
    unfold handleMouse pushMouse
    simp only
    repeat' split
    all_goals rfl
  | key k h => exact press _ _ _ _ _ _ _
  | char c alt hc hi =>
    cases alt with
    | false => rw [appendChar_eq]; exact press _ _ _ _ _ _ _
    | true => rw [appendChar_alt_eq]; exact press _ _ _ _ _ _ _

/-- Reading and timing out leave what the console last said. -/
theorem exec_flags {sys : Sys} {root : Node} (hr : Holds root table) {env : Nat → Env} {o o' : Obj} {op : Op}
    (h : exec sys root env o op = some o') (hq : ∀ b ∈ o.queue, b < 256) (hb : ∀ b ∈ written [op], b < 256)
    (hm : ∀ m, op ≠ .mode m) (hw : ∀ r, op ≠ .window r) : flagsOf o'.st = flagsOf o.st :=
  (exec_inv hr (fun s => flagsOf s = flagsOf o.st)
    (fun e item s s' hs he => (effect_flags he).trans hs) (fun s hs => hs) (fun s hs _ _ => hs)
    (fun now bytes e b hx => by subst e; exact hb b (by simp [written, hx]))
    (fun m s e _ => absurd e (hm m)) (fun r s e _ => absurd e (hw r)) h hq rfl).1

/-- What the timeout check does when it is due. -/
theorem poll_due {sys : Sys} {root : Node} (hr : Holds root table) {env : Nat → Env} {o o' : Obj} {now : Nat}
    (h : flushIncompleteEscapeCode sys root env now o = some o') (hq : ∀ b ∈ o.queue, b < 256)
    (hrec : o.st.records = []) :
    (o' = o ∧ (o.queue = [] ∨ ¬ 1000 < (now + 2 ^ 32 - o.lastTick) % 2 ^ 32)) ∨
    (1000 < (now + 2 ^ 32 - o.lastTick) % 2 ^ 32 ∧ o'.queue = [] ∧ o'.lastTick = o.lastTick ∧
      ∃ items new cut, o.queue = items.flatten ++ cut ∧ events o'.st.out = events o.st.out ++ new ∧
        Meanings table o.st.escapeInputEnabled items new ∧
        (cut = [] ∨ ∃ part, (cut = part ∨ cut = 27 :: part) ∧ CutCharacter part)) := by
  unfold flushIncompleteEscapeCode kIncompleteEscapeTimeoutMs at h
  split at h
  · rename_i hc
    obtain ⟨s1, c, q1, h1, h2, h3, h4⟩ := doWrite_total sys root env true o.pos o.st o.queue
    rw [h1] at h
    obtain ⟨items, hrun⟩ := run_of_loop h2
    obtain ⟨r1, r2, r3⟩ := run_flatten hrun
    obtain ⟨f1, new, f2, f3, f4⟩ := run_meanings hr hrun hq
    cases h
    refine .inr ⟨hc.2, rfl, rfl, items, new, q1, r1, ?_, f4, ?_⟩
    · have e0 : sent o.st = o.st.out := by unfold sent; rw [hrec]; simp
      show events (s1.out ++ s1.records.map Out.record) = _
      rw [show s1.out ++ s1.records.map Out.record = sent s1 from rfl, f2, e0]
      unfold events
      rw [List.filter_append]
      congr 1
      rw [List.filter_eq_self]
      intro e he
      have : e ≠ Out.dsr := fun h => f3 (h ▸ he)
      simpa using this
    · rcases r3 with r3 | r3
      · exact .inl r3
      · exact .inr (scanInput_incomplete_eof (fun b hb => hq b (by rw [r1]; exact List.mem_append_right _ hb)) r3)
  · rename_i hc
    cases h
    refine .inl ⟨rfl, ?_⟩
    by_cases hq0 : o.queue = []
    · exact .inl hq0
    · exact .inr fun hl => hc ⟨hq0, hl⟩

/-- What reading bytes does. -/
theorem write_heard {sys : Sys} {root : Node} (hr : setAll newNode defaultRegs = some root) {env : Nat → Env}
    {o o' : Obj} {now : Nat} {bytes : List Nat} (h : writeInput sys root env now o bytes = some o')
    (hne : bytes ≠ []) (hq : ∀ b ∈ o.queue, b < 256) (hb : ∀ b ∈ bytes, b < 256) (hrec : o.st.records = []) :
    o'.lastTick = now ∧ ∃ items new, o.queue ++ bytes = items.flatten ++ o'.queue ∧ events o'.st.out = events o.st.out ++ new ∧
      Meanings defaultRegs o.st.escapeInputEnabled items new := by
  obtain ⟨o1, items, new, h1, h2, h3, h4⟩ := C52_meaning sys root hr env o hrec hq [(now, bytes)]
    (by simpa using hb) (by simpa using hne)
  have e1 : o1 = o' := by
    simp only [writeAll, h, Option.bind_some, Option.some.injEq] at h1
    exact h1.symm
  subst e1
  refine ⟨?_, items, new, by simpa using h2, h3, h4⟩
  · have hl : ¬ bytes.length = 0 := by simpa using hne
    simp only [writeInput, hl, if_false] at h
    repeat' split at h
    all_goals cases h <;> rfl

end Winpty.ConsoleInput

namespace Winpty.AgentInput
open Winpty.ConsoleInput (Out Rect Obj Op St exec execAll written sent exec_out poll_due write_heard)
open Winpty.Spec Winpty.Spec.Typing Winpty.Props
open Winpty.InputMap (Node Key setAll newNode defaultRegs)

/-- The entry for an operation. -/
def entryOf : Op → Entry
  | .write now bytes => .read now bytes
  | .poll now => .check now
  | .mode m => .mode m
  | .window r => .window r

/-- A record, and the state of `ConsoleInput` after what it says. -/
inductive Replays (cfg : Cfg) (o0 : Obj) : List Entry → Obj → Prop
  | start : Replays cfg o0 [] o0
  | op (hist : List Entry) (o : Obj) (op : Op) (o' : Obj) (h : Replays cfg o0 hist o)
      (e : exec cfg.sys cfg.root cfg.env o op = some o') :
      Replays cfg o0 (hist ++ entryOf op :: delivered o o') o'
  | size (hist : List Entry) (o : Obj) (c r : Int) (h : Replays cfg o0 hist o) :
      Replays cfg o0 (hist ++ [.size c r]) o

theorem bytesRead_append (a b : List Entry) : bytesRead (a ++ b) = bytesRead a ++ bytesRead b := by
  induction a with
  | nil => rfl
  | cons e a ih => cases e <;> simp [bytesRead, ih]

theorem bytesRead_events (l : List Out) : bytesRead (l.map .event) = [] := by
  induction l with
  | nil => rfl
  | cons e l ih => simpa [bytesRead] using ih

theorem eventsSeen_append (a b : List Entry) : eventsSeen (a ++ b) = eventsSeen a ++ eventsSeen b := by
  induction a with
  | nil => rfl
  | cons e a ih => cases e <;> simp [eventsSeen, ih]

theorem eventsSeen_events (l : List Out) : eventsSeen (l.map .event) = l := by
  induction l with
  | nil => rfl
  | cons e l ih => simpa [eventsSeen] using ih

theorem sizesSent_append (a b : List Entry) : sizesSent (a ++ b) = sizesSent a ++ sizesSent b := by
  induction a with
  | nil => rfl
  | cons e a ih => cases e <;> simp [sizesSent, ih]

theorem sizesSent_events (l : List Out) : sizesSent (l.map .event) = [] := by
  induction l with
  | nil => rfl
  | cons e l ih => simpa [sizesSent] using ih

theorem lastMode_events (h : List Entry) (l : List Out) : lastMode (h ++ l.map .event) = lastMode h := by
  unfold lastMode
  rw [List.filterMap_append, List.filterMap_map]
  congr 2
  simp

theorem lastWindow_events (h : List Entry) (l : List Out) : lastWindow (h ++ l.map .event) = lastWindow h := by
  unfold lastWindow
  rw [List.filterMap_append, List.filterMap_map]
  congr 2
  simp

theorem lastRead_events (h : List Entry) (l : List Out) : lastRead (h ++ l.map .event) = lastRead h := by
  unfold lastRead
  rw [List.filterMap_append, List.filterMap_map]
  congr 2
  simp

/-- What the record says about the state of `ConsoleInput`. -/
structure Known (cfg : Cfg) (hist : List Entry) (o : Obj) : Prop where
  hears : Hears defaultRegs hist o.queue
  waits : o.queue = [] ∨ Beginning defaultRegs o.queue
  bytes : ∀ b ∈ o.queue, b < 256
  flushed : o.st.records = []
  mode : o.mouseMode = cfg.mouseMode
  tick : o.lastTick = lastRead hist
  vt : o.st.escapeInputEnabled = wantsVt hist
  seen : eventsSeen hist = events o.st.out
  window : o.st.rect = lastWindow hist
  mouse : o.st.mouseInputEnabled = (lastMode hist).testBit 4
  quick : o.st.quickEditEnabled = (lastMode hist).testBit 6
  ext : o.st.extendedEnabled = (lastMode hist).testBit 7

theorem delivered_eq {o o' : Obj} {new : List Out} (h : o'.st.out = o.st.out ++ new) :
    delivered o o' = (events new).map .event := by
  unfold delivered events
  rw [h, List.drop_left]

theorem known_of_replays {cfg : Cfg} (hr : setAll newNode defaultRegs = some cfg.root) {hist : List Entry}
    {o : Obj} (h : Replays cfg { mouseMode := cfg.mouseMode } hist o) (hb : ∀ b ∈ bytesRead hist, b < 256) :
    Known cfg hist o := by
  induction h with
  | start => exact ⟨.start, .inl rfl, by simp, rfl, rfl, rfl, rfl, rfl, rfl, rfl, rfl, rfl⟩
  | size hist o c r h ih =>
    have ih := ih (fun b hm => hb b (by rw [bytesRead_append]; exact List.mem_append_left _ hm))
    refine ⟨.size _ _ _ _ ih.hears, ih.waits, ih.bytes, ih.flushed, ih.mode, ih.tick.trans ?_, ih.vt.trans ?_, ?_,
      ih.window.trans ?_, ih.mouse.trans ?_, ih.quick.trans ?_, ih.ext.trans ?_⟩
    all_goals first
      | simp [lastRead]; done
      | simp [wantsVt, lastMode]; done
      | simp [lastWindow]; done
      | (rw [eventsSeen_append, ih.seen]; simp [eventsSeen])
  | op hist o op o' h e ih =>
    have hb1 : ∀ b ∈ bytesRead hist, b < 256 := fun b hm =>
      hb b (by rw [bytesRead_append]; exact List.mem_append_left _ hm)
    have ih := ih hb1
    have hb2 : ∀ b ∈ written [op], b < 256 := by
      intro b hm
      refine hb b ?_
      rw [bytesRead_append]
      refine List.mem_append_right _ ?_
      cases op with
      | write now bytes =>
        simp only [written, List.append_nil] at hm
        simp [entryOf, bytesRead, hm]
      | _ => simp [written] at hm
    obtain ⟨⟨new, hn⟩, f2, f3, f4⟩ := exec_out (ConsoleInput.default_holds hr) e ih.bytes hb2 ih.flushed
    have hd := delivered_eq hn
    have hev : events o'.st.out = events o.st.out ++ events new := by
      unfold events; rw [hn, List.filter_append]
    have hseen : ∀ (x : Entry), (∀ y, x ≠ .event y) →
        eventsSeen (hist ++ x :: delivered o o') = events o'.st.out := by
      intro x hx
      rw [eventsSeen_append, ih.seen, hev, hd]
      refine congrArg (events o.st.out ++ ·) ?_
      cases x with
      | event y => exact absurd rfl (hx y)
      | _ => simp only [eventsSeen]; exact eventsSeen_events _
    cases op with
    | mode m =>
      cases e
      have hnil : delivered o { o with st := ConsoleInput.updateInputFlags m o.st } = [] := by
        simp [delivered, ConsoleInput.updateInputFlags]
      have hs := hseen (.mode m) (by simp)
      rw [hnil] at hs ⊢
      have hl : lastMode (hist ++ [.mode m]) = m := by simp [lastMode]
      have hbit : ∀ k, ConsoleInput.has m (2 ^ k) = m.testBit k := ConsoleInput.has_bit m
      simp only [entryOf]
      refine ⟨.mode _ _ _ ih.hears, ih.waits, f3, f2, ih.mode, ih.tick.trans ?_, ?_, hs, ih.window.trans ?_, ?_, ?_, ?_⟩
      · simp [lastRead]
      · unfold wantsVt; rw [hl]; exact hbit 9
      · simp [lastWindow]
      · rw [hl]; exact hbit 4
      · rw [hl]; exact hbit 6
      · rw [hl]; exact hbit 7
    | window r =>
      cases e
      have hnil : delivered o { o with st := { o.st with rect := r } } = [] := by
        simp [delivered]
      have hs := hseen (.window r) (by simp)
      rw [hnil] at hs ⊢
      have hl : lastMode (hist ++ [.window r]) = lastMode hist := by simp [lastMode]
      simp only [entryOf]
      refine ⟨.window _ _ _ ih.hears, ih.waits, f3, f2, ih.mode, ih.tick.trans ?_, ?_, hs, ?_, ?_, ?_, ?_⟩
      · simp [lastRead]
      · unfold wantsVt; rw [hl]; exact ih.vt
      · simp [lastWindow]
      · rw [hl]; exact ih.mouse
      · rw [hl]; exact ih.quick
      · rw [hl]; exact ih.ext
    | write now bytes =>
      have hs := hseen (.read now bytes) (by simp)
      have hl : lastMode (hist ++ entryOf (.write now bytes) :: delivered o o') = lastMode hist := by
        rw [hd, show hist ++ entryOf (.write now bytes) :: (events new).map Entry.event =
          (hist ++ [.read now bytes]) ++ (events new).map .event by simp [entryOf], lastMode_events]
        simp [lastMode]
      have hw : lastWindow (hist ++ entryOf (.write now bytes) :: delivered o o') = lastWindow hist := by
        rw [hd, show hist ++ entryOf (.write now bytes) :: (events new).map Entry.event =
          (hist ++ [.read now bytes]) ++ (events new).map .event by simp [entryOf], lastWindow_events]
        simp [lastWindow]
      have ht : lastRead (hist ++ entryOf (.write now bytes) :: delivered o o') =
          if bytes = [] then lastRead hist else now := by
        rw [hd, show hist ++ entryOf (.write now bytes) :: (events new).map Entry.event =
          (hist ++ [.read now bytes]) ++ (events new).map .event by simp [entryOf], lastRead_events]
        cases bytes <;> simp [lastRead]
      have hfl := ConsoleInput.exec_flags (ConsoleInput.default_holds hr) e ih.bytes hb2 (by simp) (by simp)
      simp only [ConsoleInput.flagsOf, Prod.mk.injEq] at hfl
      obtain ⟨g1, g2, g3, g4, g5⟩ := hfl
      simp only [exec] at e
      suffices H : Hears defaultRegs (hist ++ entryOf (.write now bytes) :: delivered o o') o'.queue ∧
          (o'.queue = [] ∨ Beginning defaultRegs o'.queue) ∧
          o'.lastTick = if bytes = [] then lastRead hist else now by
        exact ⟨H.1, H.2.1, f3, f2, f4.trans ih.mode, H.2.2.trans ht.symm,
          by unfold wantsVt; rw [hl]; exact g5.trans ih.vt, hs, by rw [hw]; exact g1.trans ih.window,
          by rw [hl]; exact g2.trans ih.mouse, by rw [hl]; exact g3.trans ih.quick, by rw [hl]; exact g4.trans ih.ext⟩
      by_cases hne : bytes = []
      · subst hne
        cases e
        have hnil : delivered o o = [] := by simp [delivered]
        refine ⟨?_, ih.waits, ih.tick⟩
        rw [hnil]
        exact Hears.read hist o.queue [] now [] [] o.queue ih.hears (by simp) .nil ih.waits
      · simp only [written, List.append_nil] at hb2
        obtain ⟨w1, items, evs, w2, w3, w4⟩ := write_heard hr e hne ih.bytes hb2 ih.flushed
        have hwait := C12_never_delayed cfg.sys cfg.root hr cfg.env now o o' ih.bytes bytes hb2 hne e
        rw [hev] at w3
        have : evs = events new := (List.append_cancel_left w3).symm
        subst this
        refine ⟨?_, hwait, by rw [if_neg hne]; exact w1⟩
        rw [hd]
        exact Hears.read hist o.queue bytes now items _ o'.queue ih.hears w2 (by rw [← ih.vt]; exact w4) hwait
    | poll now =>
      have hs := hseen (.check now) (by simp)
      have hl : lastMode (hist ++ entryOf (.poll now) :: delivered o o') = lastMode hist := by
        rw [hd, show hist ++ entryOf (.poll now) :: (events new).map Entry.event =
          (hist ++ [.check now]) ++ (events new).map .event by simp [entryOf], lastMode_events]
        simp [lastMode]
      have hw : lastWindow (hist ++ entryOf (.poll now) :: delivered o o') = lastWindow hist := by
        rw [hd, show hist ++ entryOf (.poll now) :: (events new).map Entry.event =
          (hist ++ [.check now]) ++ (events new).map .event by simp [entryOf], lastWindow_events]
        simp [lastWindow]
      have ht : lastRead (hist ++ entryOf (.poll now) :: delivered o o') = lastRead hist := by
        rw [hd, show hist ++ entryOf (.poll now) :: (events new).map Entry.event =
          (hist ++ [.check now]) ++ (events new).map .event by simp [entryOf], lastRead_events]
        simp [lastRead]
      have hfl := ConsoleInput.exec_flags (ConsoleInput.default_holds hr) e ih.bytes hb2 (by simp) (by simp)
      simp only [ConsoleInput.flagsOf, Prod.mk.injEq] at hfl
      obtain ⟨g1, g2, g3, g4, g5⟩ := hfl
      simp only [exec] at e
      suffices H : Hears defaultRegs (hist ++ entryOf (.poll now) :: delivered o o') o'.queue ∧
          (o'.queue = [] ∨ Beginning defaultRegs o'.queue) ∧ o'.lastTick = lastRead hist by
        exact ⟨H.1, H.2.1, f3, f2, f4.trans ih.mode, H.2.2.trans ht.symm,
          by unfold wantsVt; rw [hl]; exact g5.trans ih.vt, hs, by rw [hw]; exact g1.trans ih.window,
          by rw [hl]; exact g2.trans ih.mouse, by rw [hl]; exact g3.trans ih.quick, by rw [hl]; exact g4.trans ih.ext⟩
      rcases poll_due (ConsoleInput.default_holds hr) e ih.bytes ih.flushed with ⟨rfl, hsoon⟩ |
        ⟨w1, w2, w3, items, evs, cut, w4, w5, w6, w7⟩
      · have hnil : delivered o' o' = [] := by simp [delivered]
        refine ⟨?_, ih.waits, ih.tick⟩
        rw [hnil]
        exact Hears.early hist o'.queue now ih.hears (by rw [← ih.tick]; exact hsoon)
      · rw [hev] at w5
        have : evs = events new := (List.append_cancel_left w5).symm
        subst this
        refine ⟨?_, .inl w2, w3.trans ih.tick⟩
        rw [hd, w2]
        exact Hears.late hist o.queue now items _ cut ih.hears (by rw [← ih.tick]; exact w1) w4
          (by rw [← ih.vt, InputMap.defaultRegs_eq]; exact w6) w7

/-! ## The agent's part is a run of the agent -/

theorem sendDsrs_add (cfg : Agent.Cfg) (n m : Nat) (s : Agent.State) :
    Agent.sendDsrs cfg s (n + m) = (Agent.sendDsrs cfg s n).bind fun s' => Agent.sendDsrs cfg s' m := by
  induction n generalizing s with
  | zero => simp [Agent.sendDsrs]
  | succ n ih =>
    rw [Nat.succ_add]
    simp only [Agent.sendDsrs]
    split
    · cases Agent.writeConout s .dsr [0x1b, 0x5b, 0x36, 0x6e] with
      | none => rfl
      | some s1 => exact ih s1
    · exact ih s

theorem write_agent {cfg : Cfg} {s s' : State} {now : Nat} {bytes : List Nat}
    (h : write cfg s now bytes = some s') :
    Agent.sendDsrs cfg.agent s.agent (newQueries s.input s'.input) = some s'.agent ∧
    exec cfg.sys cfg.root cfg.env s.input (.write now bytes) = some s'.input ∧
    s'.hist = s.hist ++ .read now bytes :: delivered s.input s'.input := by
  unfold write at h
  split at h
  · cases h
  · rename_i o ho
    split at h
    · cases h
    · rename_i a ha
      cases h
      exact ⟨ha, ho, rfl⟩

theorem writeEach_agent {cfg : Cfg} (now : Nat → Nat) : ∀ (bs : List Nat) (k : Nat) {s s' : State},
    writeEach cfg s now k bs = some s' → ∃ n, Agent.sendDsrs cfg.agent s.agent n = some s'.agent := by
  intro bs
  induction bs with
  | nil => intro k s s' h; cases h; exact ⟨0, rfl⟩
  | cons b bs ih =>
    intro k s s' h
    simp only [writeEach] at h
    split at h
    · cases h
    · rename_i s1 h1
      obtain ⟨n, hn⟩ := ih _ h
      exact ⟨_ + n, by rw [sendDsrs_add, (write_agent h1).1]; exact hn⟩

theorem tickConin_agent {cfg : Cfg} {s s' : State} {t : Turn} (h : tickConin cfg s t = some s') :
    ∃ dsr, ∀ want, Agent.tickConin cfg.agent s.agent (t.tick dsr want) = some s'.agent := by
  unfold tickConin at h
  split at h
  · cases h
  · rename_i p did hp
    split at h
    · rename_i hd
      unfold pollConinPipe at h
      split at h
      · cases h
      · rename_i p1 data hst
        have : ∃ n, Agent.sendDsrs cfg.agent { s.agent with conin := p1 } n = some s'.agent := by
          split at h
          · exact writeEach_agent _ _ _ h
          · exact ⟨_, (write_agent h).1⟩
        obtain ⟨n, hn⟩ := this
        refine ⟨n, fun want => ?_⟩
        unfold Agent.tickConin Agent.pollConinPipe
        simp only [Turn.tick, hp, if_pos hd, hst]
        exact hn
    · rename_i hd
      cases h
      refine ⟨0, fun want => ?_⟩
      unfold Agent.tickConin
      simp only [Turn.tick, hp, if_neg hd]

theorem noteResizes_agent (s : State) (t : Turn) (n : Nat) : (noteResizes s t n).agent = s.agent := by
  unfold noteResizes setMouseWindowRect
  split <;> rfl

theorem tickControl_agent {cfg : Cfg} {s s' : State} {t : Turn} (h : tickControl cfg s t = some s') :
    ∀ dsr want, Agent.tickControl cfg.agent s.agent (t.tick dsr want) = some s'.agent := by
  intro dsr want
  unfold tickControl at h
  split at h
  · cases h
  · rename_i a ha
    cases h
    rw [noteResizes_agent]
    exact ha

theorem tickOutputs_agent {s s' : State} {t : Turn} (h : tickOutputs s t = some s') :
    ∀ dsr want, ∃ a, Agent.tickConout s.agent (t.tick dsr want) = some a ∧
      Agent.tickConerr a (t.tick dsr want) = some s'.agent := by
  intro dsr want
  unfold tickOutputs at h
  split at h
  · cases h
  · rename_i a1 h1
    split at h
    · cases h
    · rename_i a2 h2
      cases h
      exact ⟨a1, h1, h2⟩

theorem flush_agent {cfg : Cfg} {s s' : State} {now : Nat} (h : flushIncompleteEscapeCode cfg s now = some s') :
    s'.agent = s.agent ∧ exec cfg.sys cfg.root cfg.env s.input (.poll now) = some s'.input ∧
    s'.hist = s.hist ++ .check now :: delivered s.input s'.input := by
  unfold flushIncompleteEscapeCode at h
  split at h
  · cases h
  · rename_i o ho
    cases h
    exact ⟨rfl, ho, rfl⟩

/-- The mouse is wanted at a poll. -/
def wanted (s : State) (p : Poll) : Bool :=
  ConsoleInput.shouldActivateTerminalMouse (updateInputFlags s p.mode).input

theorem onPollTimeout_agent {cfg : Cfg} {s s' : State} {p : Poll} (h : onPollTimeout cfg s p = some s') :
    Agent.onPollTimeout cfg.agent s.agent (p.env (wanted s p)) = some s'.agent := by
  unfold onPollTimeout at h
  split at h
  · cases h
  · rename_i s1 h1
    have e1 := (flush_agent h1).1
    split at h
    · cases h
    · rename_i a ha
      rw [e1] at ha
      split at h
      · cases h; exact ha
      · cases h; exact ha

theorem tick_agent {cfg : Cfg} {s s' : State} {t : Turn} (h : tick cfg s t = some s') :
    ∃ s1 s2 s3 dsr, tickControl cfg s t = some s1 ∧ tickConin cfg s1 t = some s2 ∧
      tickOutputs s2 t = some s3 ∧
      (∀ p, t.poll = some p → Agent.tick cfg.agent s.agent (t.tick dsr (wanted s3 p)) = some s'.agent) ∧
      (t.poll = none → ∀ want, Agent.tick cfg.agent s.agent (t.tick dsr want) = some s'.agent) := by
  unfold tick at h
  simp only [Option.bind_eq_some_iff] at h
  obtain ⟨s1, h1, s2, h2, s3, h3, h4⟩ := h
  obtain ⟨dsr, hd⟩ := tickConin_agent h2
  refine ⟨s1, s2, s3, dsr, h1, h2, h3, ?_, ?_⟩
  · intro p hp
    rw [hp] at h4
    obtain ⟨a, a1, a2⟩ := tickOutputs_agent h3 dsr (wanted s3 p)
    unfold Agent.tick
    rw [tickControl_agent h1 dsr (wanted s3 p)]
    simp only [Option.bind_some]
    rw [hd]
    simp only [Option.bind_some, a1, a2]
    simp only [Turn.tick, hp, Option.map_some]
    exact onPollTimeout_agent h4
  · intro hp want
    rw [hp] at h4
    obtain ⟨a, a1, a2⟩ := tickOutputs_agent h3 dsr want
    unfold Agent.tick
    rw [tickControl_agent h1 dsr want]
    simp only [Option.bind_some]
    rw [hd]
    simp only [Option.bind_some, a1, a2]
    simp only [Turn.tick, hp, Option.map_none]
    simp only [Option.some.injEq] at h4
    rw [h4]

end Winpty.AgentInput
