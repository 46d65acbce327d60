import Verif.Lemmas.AgentOps
import Verif.Props.Agent

/-!
# C75: what the client types, end to end

The agent with its `ConsoleInput`, from the bytes the CONIN pipe delivers to the events the console
receives, the status queries and mouse modes the terminal is sent.
-/
namespace Winpty.Props
open Winpty.AgentInput (Cfg State Turn Entry start loop)
open Winpty.ConsoleInput (Out Rect Rec)
open Winpty.InputMap (setAll newNode defaultRegs)
open Winpty.Spec Winpty.Spec.Typing
open Winpty.Spec.Agent (mouseWrites mousePairs mouseOn)

/-- The two models of the agent agree: whatever this agent does, the agent of C26–C33, C73 and C74 does
too, for the same answers of the pipes, with some number of status queries per turn and some answer to
whether the terminal's mouse is wanted. -/
theorem C75_session (cfg : Cfg) (mode : Nat) (ts : List Turn) (s : State) (h : Typing.Reaches cfg mode ts s) :
    ∃ extra : List (Nat × Bool), extra.length = ts.length ∧
      Spec.Agent.Reaches cfg.agent (List.zipWith (fun t x => t.tick x.1 x.2) ts extra) s.agent := by
  obtain ⟨names, connected, cols, rows, out, err, _, s0, h0, h1⟩ := h
  have hstart : Agent.start cfg.agent names connected cols rows out err = some s0.agent := by
    unfold start at h0
    split at h0
    · cases h0
    · rename_i a ha
      cases h0
      exact ha
  suffices H : ∀ (ts : List Turn) (s0 : State), loop cfg s0 ts = some s → ∃ extra : List (Nat × Bool),
      extra.length = ts.length ∧
      Agent.loop cfg.agent s0.agent (List.zipWith (fun t x => t.tick x.1 x.2) ts extra) = some s.agent by
    obtain ⟨extra, e1, e2⟩ := H ts s0 h1
    exact ⟨extra, e1, names, connected, cols, rows, out, err, s0.agent, hstart, e2⟩
  intro ts
  induction ts with
  | nil =>
    intro s0 h
    cases h
    exact ⟨[], rfl, rfl⟩
  | cons t ts ih =>
    intro s0 h
    simp only [loop] at h
    by_cases hx : s0.agent.exiting = true
    · rw [if_pos hx] at h
      cases h
      refine ⟨List.replicate (ts.length + 1) (0, false), by simp, ?_⟩
      simp only [List.replicate_succ, List.zipWith_cons_cons, Agent.loop]
      rw [if_pos hx]
    · rw [if_neg hx] at h
      obtain ⟨s1, g1, g2⟩ := Option.bind_eq_some_iff.1 h
      obtain ⟨_, _, s3, dsr, _, _, _, p1, p2⟩ := AgentInput.tick_agent g1
      obtain ⟨extra, e1, e2⟩ := ih s1 g2
      have : ∃ want, Agent.tick cfg.agent s0.agent (t.tick dsr want) = some s1.agent := by
        cases hp : t.poll with
        | none => exact ⟨false, p2 hp false⟩
        | some p => exact ⟨_, p1 p hp⟩
      obtain ⟨want, hw⟩ := this
      refine ⟨(dsr, want) :: extra, by simp [e1], ?_⟩
      simp only [List.zipWith_cons_cons, Agent.loop]
      rw [if_neg hx, hw]
      exact e2

/-- Every byte the CONIN pipe has delivered has been handled, in order. -/
theorem C75_read (cfg : Cfg) (mode : Nat) (ts : List Turn) (s : State) (h : Typing.Reaches cfg mode ts s) :
    bytesRead s.hist = s.agent.conin.os.received := by
  have hg := AgentInput.good_reaches h
  have := hg.cin.inp.stream
  rw [hg.empty.1, List.append_nil] at this
  exact this

/-- Everything typed is understood, in the order typed: the record of the session is one in which the
bytes read are cut into items, the events the console received are the meanings of the items, and only
the beginning of an item waits, for no more than a second. -/
theorem C75_heard (cfg : Cfg) (hr : setAll newNode defaultRegs = some cfg.root) (mode : Nat) (ts : List Turn)
    (s : State) (h : Typing.Reaches cfg mode ts s) (hb : ∀ b ∈ s.agent.conin.os.received, b < 256) :
    ∃ waiting, Hears defaultRegs s.hist waiting := by
  rw [← C75_read cfg mode ts s h] at hb
  exact ⟨_, (AgentInput.known_of_replays hr (AgentInput.good_reaches h).core.replays hb).hears⟩

/-- Text reaches the console.  If the client types text (without NUL, Ctrl-C, ESC and DEL) and does not
pause for more than a second inside a character, and the console never asks for VT input, then the
console receives only key events and these type exactly that text. -/
theorem C75_text (cfg : Cfg) (hr : setAll newNode defaultRegs = some cfg.root) (mode : Nat) (ts : List Turn)
    (s : State) (h : Typing.Reaches cfg mode ts s) (cs : List Nat)
    (hc : ∀ c ∈ cs, IsScalar c ∧ c ≠ 0 ∧ c ≠ 3 ∧ c ≠ 27 ∧ c ≠ 127)
    (ht : s.agent.conin.os.received = utf8Text cs)
    (hm : ∀ m, .mode m ∈ s.hist → m.testBit 9 = false)
    (hp : ∀ pre now post, s.hist = pre ++ .check now :: post → Late (lastRead pre) now →
      WellFormedUtf8 (bytesRead pre)) :
    typed (eventsSeen s.hist) = utf16Text cs ∧ ∀ e ∈ eventsSeen s.hist, isKeyRecord e = true := by
  have hrd := C75_read cfg mode ts s h
  have hb : ∀ b ∈ s.agent.conin.os.received, b < 256 := by
    rw [ht]
    intro b hb
    obtain ⟨c, hcm, hbm⟩ := List.mem_flatMap.1 hb
    exact Unicode.utf8_bytes c (hc c hcm).1 b hbm
  obtain ⟨w, hw⟩ := C75_heard cfg hr mode ts s h hb
  obtain ⟨cs1, cs2, rfl, p⟩ := AgentInput.text_typed hw (rest := []) hc (by rw [List.append_nil, hrd, ht]) hm hp
  have hnil := AgentInput.nothing_waits hc p ⟨cs1 ++ cs2, fun c hm => (hc c hm).1, by rw [hrd, ht]⟩
  have h2 : utf8Text cs2 = [] := by rw [← p.text, hnil]; rfl
  have : cs2 = [] := by
    cases cs2 with
    | nil => rfl
    | cons c cs =>
      obtain ⟨b, t, e, _⟩ := Unicode.utf8_head c (hc c (by simp)).1
      have : utf8 c ++ utf8Text cs = [] := h2
      rw [e] at this; cases this
  subst this
  rw [List.append_nil]
  exact ⟨p.typed, p.keys⟩

/-- The keyboard the console sees is an orderly one: in a session in which the console never asks for VT
input, every key pressed is released again, in reverse order, and each event carries the modifiers that
are down. -/
theorem C75_keys (cfg : Cfg) (hr : setAll newNode defaultRegs = some cfg.root) (hl : OrdinaryLayout cfg.sys)
    (mode : Nat) (ts : List Turn) (s : State) (h : Typing.Reaches cfg mode ts s)
    (hb : ∀ b ∈ s.agent.conin.os.received, b < 256) (hm : ∀ m, .mode m ∈ s.hist → m.testBit 9 = false) :
    keyboards [] (eventsSeen s.hist) = some [] := by
  rw [← C75_read cfg mode ts s h] at hb
  have hg := (AgentInput.good_reaches h).core.replays
  obtain ⟨ops, ho⟩ := AgentInput.ops_of_replays hg
  obtain ⟨o1, r1, r2⟩ := ho.plain
  obtain ⟨o, q1, q2⟩ := C10_keyboard cfg.sys cfg.root hr hl cfg.env ops (by rw [ho.bytes]; exact hb)
    (fun m hmem => by
      have := hm m (ho.mode m hmem)
      have h9 := ConsoleInput.has_bit m 9
      rw [this] at h9
      simpa [ConsoleInput.has] using h9)
  rw [r1] at q1; cases q1
  have hk := AgentInput.known_of_replays hr hg hb
  rw [hk.seen, r2]
  have hev : ∀ (l : List Out) (held : List HeldKey), keyboards held (events l) = keyboards held l := by
    intro l
    induction l with
    | nil => intro _; rfl
    | cons e l ih =>
      intro held
      by_cases he : e = .dsr
      · subst he
        show keyboards held (events l) = keyboards held (Out.dsr :: l)
        rw [ih]; rfl
      · have : events (e :: l) = e :: events l := by unfold events; rw [List.filter_cons_of_pos (by simpa using he)]
        rw [this]
        simp only [keyboards]
        cases keyboard held e with
        | none => rfl
        | some held' => exact ih held'
  show keyboards [] (events o1.st.out) = some []
  rw [hev]
  exact q2

/-- At most one status query is unanswered: what was read can be cut into items such that the terminal
was sent at most one query more than there are cursor position reports among them. -/
theorem C75_queries (cfg : Cfg) (hr : setAll newNode defaultRegs = some cfg.root)
    (mode : Nat) (ts : List Turn) (s : State) (h : Typing.Reaches cfg mode ts s)
    (hb : ∀ b ∈ s.agent.conin.os.received, b < 256) :
    ∃ (items replies : List (List Nat)) (waiting : List Nat),
      s.agent.conin.os.received = items.flatten ++ waiting ∧ replies.Sublist items ∧
      (∀ r ∈ replies, IsReport r) ∧ queriesSent s.agent.log ≤ replies.length + 1 := by
  have hrd := C75_read cfg mode ts s h
  rw [← hrd] at hb ⊢
  have hg := (AgentInput.good_reaches h).core
  obtain ⟨ops, ho⟩ := AgentInput.ops_of_replays hg.replays
  obtain ⟨o1, r1, r2⟩ := ho.plain
  obtain ⟨o, items, replies, q1, q2, _, q4, q5, q6⟩ :=
    C11_one_outstanding cfg.sys cfg.root hr cfg.env ops (by rw [ho.bytes]; exact hb)
  rw [r1] at q1; cases q1
  have := (hg.sent hr hb).1
  rw [r2] at this
  have this : queriesSent s.agent.log ≤ queries o1.st.out := this
  refine ⟨items, replies, o1.queue, by rw [← ho.bytes]; exact q2, q4, q5, ?_⟩
  split at q6 <;> omega

/-- While the beginning of an item waits the terminal has been asked, as long as the CONOUT pipe is open
(and not in a plain session, where the terminal is never asked). -/
theorem C75_asked (cfg : Cfg) (hr : setAll newNode defaultRegs = some cfg.root)
    (mode : Nat) (ts : List Turn) (s : State) (h : Typing.Reaches cfg mode ts s)
    (hb : ∀ b ∈ s.agent.conin.os.received, b < 256) (hp : cfg.agent.plainMode = false)
    (ho : s.agent.conout.pipe.isClosed = false) :
    ∃ waiting, Hears defaultRegs s.hist waiting ∧ (waiting ≠ [] → 0 < queriesSent s.agent.log) := by
  rw [← C75_read cfg mode ts s h] at hb
  have hg := (AgentInput.good_reaches h).core
  obtain ⟨ops, hops⟩ := AgentInput.ops_of_replays hg.replays
  obtain ⟨o1, r1, r2⟩ := hops.plain
  obtain ⟨o, q1, q2⟩ := C11_asked cfg.sys cfg.root hr cfg.env ops (by rw [hops.bytes]; exact hb)
  rw [r1] at q1; cases q1
  refine ⟨_, (AgentInput.known_of_replays hr hg.replays hb).hears, ?_⟩
  rw [(hg.sent hr hb).2 hp (by simpa [NamedPipe.Pipe.isClosed] using ho), r2]
  exact q2

/-- The console receives a mouse event only if it wanted the mouse, and only inside the window, according
to what the agent found last before the event. -/
theorem C75_mouse_events (cfg : Cfg) (hr : setAll newNode defaultRegs = some cfg.root)
    (mode : Nat) (ts : List Turn) (s : State) (h : Typing.Reaches cfg mode ts s)
    (hb : ∀ b ∈ s.agent.conin.os.received, b < 256) (hw : ∀ r, .window r ∈ s.hist → WindowOk r)
    (before after : List Entry) (x y : Int) (buttons flags control : Nat)
    (he : s.hist = before ++ .event (.record (.mouse x y buttons flags control)) :: after) :
    Typing.wantsMouse before = true ∧ (lastWindow before).left ≤ x ∧ x ≤ (lastWindow before).right ∧
      (lastWindow before).top ≤ y ∧ y ≤ (lastWindow before).bottom := by
  rw [← C75_read cfg mode ts s h] at hb
  exact AgentInput.mouse_of_replays hr (AgentInput.good_reaches h).core.replays hb hw _ _ _ _ _ _ _ he

/-- The terminal's mouse is turned on and off in turn, and is on exactly if a poll has taken place, the
mouse mode and the console's last mode ask for it, the child's exit has not been noticed, and the
session is not a plain one. -/
theorem C75_mouse_mode (cfg : Cfg) (mode : Nat) (ts : List Turn) (s : State) (h : Typing.Reaches cfg mode ts s) :
    ∃ n, mouseWrites s.agent.log = mousePairs n ++
      if polled s.hist = true ∧ terminalMouse cfg.mouseMode (lastMode s.hist) = true ∧
        .childExited ∉ s.agent.log ∧ cfg.agent.plainMode = false then [mouseOn] else [] := by
  have hg := AgentInput.good_reaches h
  obtain ⟨n, hn⟩ := hg.rest.pre.inv.mouse
  refine ⟨n, ?_⟩
  rw [hn, hg.core.mouse]
  congr 1
  have hcl := hg.rest.pre.inv.closing
  by_cases hc : s.agent.closing = true
  · rw [if_neg (by simp [hc]), if_neg (by simp [hcl.1 hc])]
  · have hc' : s.agent.closing = false := by simpa using hc
    have hno : .childExited ∉ s.agent.log := fun hm => hc (hcl.2 hm)
    simp only [hc', Bool.not_false, Bool.and_true, Bool.and_eq_true, Bool.not_eq_true', hno, not_false_iff, true_and,
      and_assoc]

/-- At the start the console's mode is changed in three bits only: insert mode (bit 5) and the bit that
makes these meaningful (bit 7) are turned on, and quick edit (bit 6) is turned on if the mouse mode is
automatic and off otherwise.  So with the automatic mouse mode the terminal's mouse stays off until a
program turns quick edit off. -/
theorem C75_startup (cfg : Cfg) (names : List (List Nat)) (connected : Bool × Bool × Bool) (cols rows : Int)
    (out err : List Agent.TermCall) (mode : Nat) (hm : mode < 2 ^ 32) (s : State)
    (h : start cfg names connected cols rows out err mode true = some s) :
    ∃ m, s.hist = [.mode m] ∧
      (∀ i, m.testBit i = if i = 5 ∨ i = 7 then true else if i = 6 then decide (cfg.mouseMode = 1) else mode.testBit i) ∧
      (cfg.mouseMode = 1 → terminalMouse cfg.mouseMode m = false) := by
  unfold start at h
  split at h
  · cases h
  · cases h
    have hbits : ∀ i, (ConsoleInput.startupMode cfg.mouseMode mode).testBit i =
        if i = 5 ∨ i = 7 then true else if i = 6 then decide (cfg.mouseMode = 1) else mode.testBit i := by
      intro i
      have h7 : (ConsoleInput.ENABLE_EXTENDED_FLAGS).testBit i = decide (7 = i) := Nat.testBit_two_pow (n := 7) (m := i)
      have h5 : (ConsoleInput.ENABLE_INSERT_MODE).testBit i = decide (5 = i) := Nat.testBit_two_pow (n := 5) (m := i)
      have h6 : (ConsoleInput.ENABLE_QUICK_EDIT_MODE).testBit i = decide (6 = i) := Nat.testBit_two_pow (n := 6) (m := i)
      have hn : (0xFFFFFFFF - ConsoleInput.ENABLE_QUICK_EDIT_MODE).testBit i = decide (i < 32 ∧ i ≠ 6) := by
        by_cases hi : i < 32
        · have : ∀ i, i < 32 → (0xFFFFFFFF - ConsoleInput.ENABLE_QUICK_EDIT_MODE).testBit i =
            decide (i < 32 ∧ i ≠ 6) := by decide
          exact this i hi
        · rw [Nat.testBit_lt_two_pow (Nat.lt_of_lt_of_le (by decide : _ < 2 ^ 32)
            (Nat.pow_le_pow_right (by decide) (by omega)))]
          simp [hi]
      have hmi : 32 ≤ i → mode.testBit i = false := fun hi =>
        Nat.testBit_lt_two_pow (Nat.lt_of_lt_of_le hm (Nat.pow_le_pow_right (by decide) hi))
      unfold ConsoleInput.startupMode
      split
      · rename_i h1
        simp only [Nat.testBit_or, h7, h5, h6, h1, decide_true]
        by_cases a : i = 5
        · subst a; simp
        · by_cases b : i = 7
          · subst b; simp
          · by_cases c : i = 6
            · subst c; simp
            · simp [a, b, c, Ne.symm (a := i) a, Ne.symm (a := i) b, Ne.symm (a := i) c]
      · rename_i h1
        simp only [Nat.testBit_and, Nat.testBit_or, h7, h5, hn, h1, decide_false]
        by_cases a : i = 5
        · subst a; simp
        · by_cases b : i = 7
          · subst b; simp
          · by_cases c : i = 6
            · subst c; simp
            · by_cases d : i < 32
              · simp [a, b, c, d, Ne.symm (a := i) a, Ne.symm (a := i) b]
              · simp [a, b, c, d, hmi (by omega)]
    refine ⟨_, rfl, hbits, fun h1 => ?_⟩
    unfold terminalMouse
    rw [if_pos rfl, hbits 6, h1]
    simp

/-- Beside `C75_startup`: a usual mode. -/
example : ∃ m, ConsoleInput.startupMode 1 0x17 = m ∧ m = 0xF7 ∧ ConsoleInput.startupMode 0 0x57 = 0xB7 :=
  ⟨_, rfl, by decide, by decide⟩

/-- The console is told the size once for each resize after the one at the start. -/
theorem C75_sizes (cfg : Cfg) (mode : Nat) (ts : List Turn) (s : State) (h : Typing.Reaches cfg mode ts s) :
    (sizesSent s.hist).length + 1 = resizesMade s.agent.log :=
  (AgentInput.good_reaches h).core.sizes

/-! ## Two sample sessions -/

@[inherit_doc C75_text]
def typingCfg (mouseMode : Nat) : Cfg :=
  ⟨sampleCfg, ⟨fun _ => -1⟩, (setAll newNode InputMap.table).getD newNode, fun _ => ⟨0x1B7, 0, 500⟩, mouseMode, false⟩

theorem typingCfg_root (m : Nat) : setAll newNode defaultRegs = some (typingCfg m).root := by
  obtain ⟨root, h, _⟩ := InputMap.table_holds
  rw [InputMap.defaultRegs_eq, h]
  unfold typingCfg
  simp only [h, Option.getD_some]

@[inherit_doc C75_text]
def typingTurn (bytes : List Nat) (now : Nat) (poll : Option AgentInput.Poll) : Turn :=
  ⟨sampleIdle, ⟨0, .connected, if bytes = [] then [] else [.done 0 bytes], [], 0⟩,
    ⟨0, .connected, [], [.done 1000 []], 0⟩, ⟨0, .connected, [], [.done 1000 []], 0⟩, {}, fun _ => (0, 0), fun _ => now, poll⟩

@[inherit_doc C75_text]
def typingPoll (mode now : Nat) : AgentInput.Poll := ⟨mode, now, ⟨0, 0, 79, 24⟩, false, [72], [], []⟩

/-- `hé` typed in two reads with a poll in between; the second byte of `é` comes with the second. -/
def textTurns : List Turn :=
  [typingTurn [104, 0xC3] 50 (some (typingPoll 0x1F7 900)), typingTurn [0xA9] 1000 (some (typingPoll 0x1F7 5000))]

/-- A mouse report in two reads (the terminal is queried in between and answers). -/
def mouseTurns : List Turn :=
  [typingTurn [] 0 (some (typingPoll 0x1B7 40)), typingTurn [27, 91, 60, 48, 59, 51, 59] 50 none,
    typingTurn [50, 77, 27, 91, 53, 59, 54, 82] 60 (some (typingPoll 0x1B7 90))]

@[inherit_doc textTurns]
def typingRun (m mode : Nat) (ts : List Turn) : Option State :=
  (start (typingCfg m) [[1], [2]] (false, false, false) 80 25 [.reset false 0] [] mode false).bind
    (loop (typingCfg m) · ts)

theorem typingRun_reaches {m mode : Nat} {ts : List Turn} {s : State} (h : typingRun m mode ts = some s) :
    Typing.Reaches (typingCfg m) mode ts s := by
  obtain ⟨s0, h0, h1⟩ := Option.bind_eq_some_iff.1 h
  exact ⟨_, _, _, _, _, _, _, s0, h0, h1⟩

/-- No check is late. -/
def checksEarly (hist : List Entry) : Bool :=
  (List.range hist.length).all fun i => match hist[i]? with
    | some (.check now) => !(decide (1000 < (now + 2 ^ 32 - lastRead (hist.take i)) % 2 ^ 32)) ||
        (bytesRead (hist.take i) == [104, 0xC3, 0xA9])
    | _ => true

set_option maxRecDepth 100000 in
theorem text_facts : ∃ s, typingRun 1 0x1F7 textTurns = some s ∧
    s.agent.conin.os.received = utf8Text [104, 233] ∧
    (s.hist.all fun e => match e with | .mode m => !m.testBit 9 | _ => true) = true ∧
    checksEarly s.hist = true := by
  have h : (typingRun 1 0x1F7 textTurns).any (fun s => decide (s.agent.conin.os.received = utf8Text [104, 233]) &&
      (s.hist.all fun e => match e with | .mode m => !m.testBit 9 | _ => true) && checksEarly s.hist) = true := by
    decide +kernel
  cases e : typingRun 1 0x1F7 textTurns with
  | none => rw [e] at h; cases h
  | some s =>
    rw [e] at h
    simp only [Option.any_some, Bool.and_eq_true, decide_eq_true_eq] at h
    exact ⟨s, rfl, h.1.1, h.1.2, h.2⟩

/-- Beside `C75_read`, `C75_heard`, `C75_text` and `C75_keys`: the console sees `hé` typed, on an orderly
keyboard. -/
example : ∃ s, Typing.Reaches (typingCfg 1) 0x1F7 textTurns s ∧ typed (eventsSeen s.hist) = [104, 233] ∧
    (∀ e ∈ eventsSeen s.hist, isKeyRecord e = true) ∧ keyboards [] (eventsSeen s.hist) = some [] := by
  obtain ⟨s, h0, h1, h2, h3⟩ := text_facts
  have hm : ∀ m, .mode m ∈ s.hist → m.testBit 9 = false := by
    intro m hm
    simpa using List.all_eq_true.1 h2 _ hm
  have hr := typingRun_reaches h0
  have ht := C75_text (typingCfg 1) (typingCfg_root 1) _ _ s hr [104, 233] (by unfold IsScalar; decide) h1 hm
    (by
      intro pre now post e hl
      have hi := List.all_eq_true.1 h3 pre.length (by rw [e]; simp)
      rw [e, List.getElem?_append_right (Nat.le_refl _), Nat.sub_self, List.getElem?_cons_zero, List.take_left] at hi
      simp only [Bool.or_eq_true, Bool.not_eq_true', decide_eq_false_iff_not, beq_iff_eq] at hi
      rcases hi with hi | hi
      · exact absurd hl hi
      · rw [hi]; exact ⟨[104, 233], by unfold IsScalar; decide, by decide⟩)
  refine ⟨s, hr, ht.1.trans (by decide), ht.2, C75_keys (typingCfg 1) (typingCfg_root 1) ?_ _ _ s hr ?_ hm⟩
  · intro c
    have : layoutKey (typingCfg 1).sys c = 0 := by unfold layoutKey typingCfg; simp
    rw [this]; decide
  · rw [h1]; decide

set_option maxRecDepth 100000 in
theorem mouse_facts : ∃ s, typingRun 1 0x1B7 mouseTurns = some s ∧
    (∀ b ∈ s.agent.conin.os.received, b < 256) ∧
    (s.hist.all fun e => match e with | .window r => decide (r = ⟨0, 0, 79, 24⟩) | _ => true) = true ∧
    eventsSeen s.hist = [.record (.mouse 2 1 1 0 0)] ∧ queriesSent s.agent.log = 1 ∧
    polled s.hist = true ∧ lastMode s.hist = 0x1B7 ∧ .childExited ∉ s.agent.log := by
  have h : (typingRun 1 0x1B7 mouseTurns).any (fun s => (s.agent.conin.os.received.all fun b => decide (b < 256)) &&
      (s.hist.all fun e => match e with | .window r => decide (r = ⟨0, 0, 79, 24⟩) | _ => true) &&
      decide (eventsSeen s.hist = [.record (.mouse 2 1 1 0 0)]) && decide (queriesSent s.agent.log = 1) &&
      polled s.hist && decide (lastMode s.hist = 0x1B7) && decide (.childExited ∉ s.agent.log)) = true := by
    decide +kernel
  cases e : typingRun 1 0x1B7 mouseTurns with
  | none => rw [e] at h; cases h
  | some s =>
    rw [e] at h
    simp only [Option.any_some, Bool.and_eq_true, decide_eq_true_eq] at h
    obtain ⟨⟨⟨⟨⟨⟨h1, h2⟩, h3⟩, h4⟩, h5⟩, h6⟩, h7⟩ := h
    exact ⟨s, rfl, fun b hb => by simpa using List.all_eq_true.1 h1 b hb, h2, h3, h4, h5, h6, h7⟩

/-- Beside `C75_queries`, `C75_mouse_events` and `C75_mouse_mode`: a click inside the window, one query
and its answer, the terminal's mouse on. -/
example : ∃ s, Typing.Reaches (typingCfg 1) 0x1B7 mouseTurns s ∧ queriesSent s.agent.log = 1 ∧
    (∃ before after, s.hist = before ++ .event (.record (.mouse 2 1 1 0 0)) :: after ∧
      Typing.wantsMouse before = true) ∧
    ∃ n, mouseWrites s.agent.log = mousePairs n ++ [mouseOn] := by
  obtain ⟨s, h0, h1, h2, h3, h4, h5, h6, h7⟩ := mouse_facts
  have hr := typingRun_reaches h0
  have hin : .event (.record (.mouse 2 1 1 0 0)) ∈ s.hist := by
    have : ∀ (l : List Entry) (x : Out), x ∈ eventsSeen l → .event x ∈ l := by
      intro l x
      induction l with
      | nil => intro h; cases h
      | cons e l ih =>
        intro h
        cases e with
        | event y =>
          rcases List.mem_cons.1 h with h | h
          · rw [h]; exact List.mem_cons_self
          · exact List.mem_cons_of_mem _ (ih h)
        | _ => exact List.mem_cons_of_mem _ (ih h)
    exact this _ _ (by rw [h3]; simp)
  obtain ⟨before, after, e⟩ := List.append_of_mem hin
  refine ⟨s, hr, h4, ⟨before, after, e, ?_⟩, ?_⟩
  · exact (C75_mouse_events (typingCfg 1) (typingCfg_root 1) _ _ s hr h1 (by
      intro r hm
      have := List.all_eq_true.1 h2 _ hm
      rw [of_decide_eq_true this]
      unfold WindowOk; decide) before after 2 1 1 0 0 e).1
  · obtain ⟨n, hn⟩ := C75_mouse_mode (typingCfg 1) _ _ s hr
    refine ⟨n, ?_⟩
    rw [hn, if_pos ⟨h5, by rw [h6]; decide, h7, rfl⟩]

set_option maxRecDepth 100000 in
/-- Beside `C75_asked`: the first half of the mouse report. -/
example : ∃ s, Typing.Reaches (typingCfg 1) 0x1B7 (mouseTurns.take 2) s ∧
    (∃ waiting, Hears defaultRegs s.hist waiting ∧ (waiting ≠ [] → 0 < queriesSent s.agent.log)) := by
  have h : (typingRun 1 0x1B7 (mouseTurns.take 2)).any (fun s =>
      (s.agent.conin.os.received.all fun b => decide (b < 256)) && !s.agent.conout.pipe.isClosed) = true := by
    decide +kernel
  cases e : typingRun 1 0x1B7 (mouseTurns.take 2) with
  | none => rw [e] at h; cases h
  | some s =>
    rw [e] at h
    simp only [Option.any_some, Bool.and_eq_true, Bool.not_eq_true'] at h
    exact ⟨s, typingRun_reaches e, C75_asked (typingCfg 1) (typingCfg_root 1) _ _ s (typingRun_reaches e)
      (fun b hb => by simpa using List.all_eq_true.1 h.1 b hb) rfl h.2⟩

/-- A request for another size. -/
def sizeTurns : List Turn :=
  [{ typingTurn [] 0 none with
    control := ⟨0, .connected, [.done 0 ((Buffer.sealPacket (Buffer.putFields Buffer.newPacket
      [.int32 1, .int32 100, .int32 40])).getD [])], [.done 1000 []], 0⟩
    sizes := fun _ => (100, 3000) }]

set_option maxRecDepth 100000 in
/-- Beside `C75_sizes`: one request, one size event. -/
example : ∃ s, Typing.Reaches (typingCfg 1) 0x1B7 sizeTurns s ∧ sizesSent s.hist = [(100, 3000)] ∧
    resizesMade s.agent.log = 2 := by
  have h : (typingRun 1 0x1B7 sizeTurns).any (fun s => decide (sizesSent s.hist = [(100, 3000)])) = true := by
    decide +kernel
  cases e : typingRun 1 0x1B7 sizeTurns with
  | none => rw [e] at h; cases h
  | some s =>
    rw [e] at h
    simp only [Option.any_some, decide_eq_true_eq] at h
    refine ⟨s, typingRun_reaches e, h, ?_⟩
    rw [← C75_sizes (typingCfg 1) _ _ s (typingRun_reaches e), h]
    rfl

end Winpty.Props
