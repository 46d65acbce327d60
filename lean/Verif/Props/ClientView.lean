import Verif.Lemmas.ClientView
import Verif.Lemmas.ScraperCalls
import Verif.Props.Agent
import Verif.Props.ScraperDirect
import Verif.Props.ScraperIdle

/-!
# What the client's terminal shows (C74)

The whole way: the scraper of the agent reads the console and makes calls, the terminal writer turns
them into bytes, the agent adds titles, status queries and mouse modes to the same pipe, the pipe
hands the bytes to the client, and the client's terminal (`Spec/Vt.lean`) reads them.
-/
namespace Winpty.Props

open Winpty.Agent Winpty.Spec.Agent Winpty.Spec.ClientView Winpty.Spec.Scrape Winpty.Scraper
open Winpty.Spec.Term (Want OpsOk CfgOk FreshEmu LineOk InWindow)
open Winpty.Spec.Vt (Emu feed)
open Winpty.Spec.Screen (RowShows)

theorem watched_view {cfg : Cfg} {vcfg : Spec.Vt.Cfg} {e0 : Emu} {line : Int} {ts : List Tick} {s : State}
    {calls : List TermCall} (h : Watched cfg vcfg e0 line ts s)
    (hc : calls = callsMade cfg.env 0 (pollsOf ts) s.log) (hk : InKeeping vcfg line calls) :
    Rest s ∧ ClientView.View cfg vcfg e0 line s calls ∧
    ClientView.Tracks (pollsOf ts) (scrapes s.log) s.title s.term.mouseModeEnabled s.closing := by
  subst hc
  obtain ⟨_, _, _, _, _, s0, h1, h2⟩ := h.run
  exact ClientView.reaches_view h.terminal h.fresh h.plain h1 h2 h.titles hk.1 hk.2

/-- C74.  Titles, status queries and mouse modes do not disturb the picture: when the client has
received everything, its terminal shows each line the scraper asked for in the row of its number, the
lines of the window are on the screen, and the cursor is where it was last put, visible or hidden as
asked (`Want` is the meaning of the calls, see C17, C18 and C23). -/
theorem C74_picture (cfg : Cfg) (vcfg : Spec.Vt.Cfg) (e0 : Emu) (line : Int) (ts : List Tick) (s : State)
    (h : Watched cfg vcfg e0 line ts s) (hr : Received s) (calls : List TermCall)
    (hc : calls = callsMade cfg.env 0 (pollsOf ts) s.log) (hk : InKeeping vcfg line calls)
    (w : Want) (hw : w = (Want.start line).run (calls.map opOf))
    (e : Emu) (he : e = feed vcfg e0 s.conout.os.wire) :
    e.parse = .ground ∧ ∃ off,
      (∀ l cells, w.sent l = some cells → RowShows vcfg cfg.outputColor (e.rows (l + off)) cells) ∧
      (∀ l, InWindow vcfg w l → l ≤ w.highest → e.top ≤ l + off ∧ l + off < e.top + vcfg.height) ∧
      e.row = w.cur + off ∧ (∀ c, w.col = some c → (e.col : Int) = c) ∧
      (w.shown = true → e.cursorVisible = true) ∧ (w.hidden = true → e.cursorVisible = false) := by
  obtain ⟨_, hv, _⟩ := watched_view h hc hk
  obtain ⟨off, hrel⟩ := hv.rel
  have hg := hv.ground.2
  obtain ⟨x, hx⟩ := hv.same
  have hr : s.conout.os.wire = outBytes s.log := hr
  rw [hr, hx] at he
  rw [hx] at hg
  subst hw he
  refine ⟨hg, off, hrel.sent, ?_, ?_, ?_, hrel.shown, hrel.hidden⟩
  · intro l hl hh
    have h1 := hrel.topLe l hl
    have h2 := hrel.bot
    dsimp only at h1 h2 ⊢
    omega
  · exact hrel.row.trans (by rw [hrel.cur])
  · intro c hcol
    exact hrel.col.trans (hrel.wcol c hcol)

/-- C74.  The mouse modes of the client's terminal are on exactly if the mouse was wanted at the last
poll and the child's exit has not been noticed. -/
theorem C74_mouse (cfg : Cfg) (vcfg : Spec.Vt.Cfg) (e0 : Emu) (line : Int) (ts : List Tick) (s : State)
    (h : Watched cfg vcfg e0 line ts s) (hr : Received s) (calls : List TermCall)
    (hc : calls = callsMade cfg.env 0 (pollsOf ts) s.log) (hk : InKeeping vcfg line calls)
    (n : Nat) (hn : n ∈ [1000, 1002, 1003, 1006, 1015]) :
    (feed vcfg e0 s.conout.os.wire).modes n = true ↔
      lastMouse (pollsMade (pollsOf ts) s.log) = true ∧ .childExited ∉ s.log := by
  obtain ⟨hrest, hv, ht⟩ := watched_view h hc hk
  obtain ⟨off, hrel⟩ := hv.rel
  obtain ⟨x, hx⟩ := hv.same
  have hr : s.conout.os.wire = outBytes s.log := hr
  have hm : (feed vcfg e0 s.conout.os.wire).modes n = s.term.mouseModeEnabled := by
    rw [hr, hx]
    refine hrel.modes n ?_
    simp only [List.mem_cons, List.not_mem_nil, or_false] at hn
    simp only [Terminal.mouseModes, List.mem_cons, List.not_mem_nil, or_false]
    omega
  have hcl := hrest.pre.inv.closing
  rw [hm, ht.mouse]
  simp only [Bool.and_eq_true, Bool.not_eq_true']
  refine and_congr Iff.rfl ?_
  rw [← hcl]
  simp

/-- C74, C55.  Unless the pipe broke, the title of the client's terminal is the one the console had at
the last poll.  (A console whose title is a single blank from the beginning is not announced.)
Missing: titles with control characters, see `C55_defect`. -/
theorem C74_title_partial (cfg : Cfg) (vcfg : Spec.Vt.Cfg) (e0 : Emu) (line : Int) (ts : List Tick) (s : State)
    (h : Watched cfg vcfg e0 line ts s) (hr : Received s) (calls : List TermCall)
    (hc : calls = callsMade cfg.env 0 (pollsOf ts) s.log) (hk : InKeeping vcfg line calls)
    (ho : s.conout.pipe.opened = true ∨ .closeConout ∈ s.log)
    (t : List Nat) (ht : lastTitle (pollsMade (pollsOf ts) s.log) = some t) :
    (feed vcfg e0 s.conout.os.wire).title = [0x30, 0x3b] ++ cfg.utf8FromWide t ∨
    (t = [0x20] ∧ (feed vcfg e0 s.conout.os.wire).title = e0.title) := by
  obtain ⟨_, hv, hk⟩ := watched_view h hc hk
  have hr : s.conout.os.wire = outBytes s.log := hr
  have hti : s.title = t := by
    rcases hk.title with ⟨h0, _⟩ | h1
    · rw [pollsMade, h0] at ht
      simp [lastTitle] at ht
    · rw [pollsMade] at ht
      rw [ht, Option.some.injEq] at h1
      exact h1.symm
  rw [hr]
  rcases hv.title ho with ⟨h1, h2⟩ | h1
  · exact .inr ⟨by rw [← hti, h1], h2⟩
  · exact .inl (by rw [h1, hti])

/-- C74.  When nothing is left to send, the client has received everything. -/
theorem C74_received_open (cfg : Cfg) (ts : List Tick) (s : State) (h : Reaches cfg ts s)
    (ho : s.conout.pipe.opened = true) (hz : NamedPipe.bytesToSend s.conout.pipe = some 0) : Received s :=
  (reaches_rest h).pre.inv.out.nothing_left ho hz

/-- C74.  When the agent has closed the pipe, the client has received everything written before. -/
theorem C74_received_closed (cfg : Cfg) (ts : List Tick) (s : State) (h : Reaches cfg ts s)
    (before after : List Entry) (hl : s.log = before ++ .closeConout :: after) (hn : outBytes after = []) :
    Received s := by
  obtain ⟨_, h2, _⟩ := C30_flushed cfg ts s h before after hl
  unfold Received
  rw [h2, hl, outBytes_append]
  simp only [outBytes, hn, List.append_nil]

theorem history_keeping {sys : Sys} {H W line : Int} {n : Nat} {sc : S} {c : Con} {sh : Shown}
    {calls : List TermCall} {vcfg : Spec.Vt.Cfg} (hs : SysOk sys) (hn : n < 2 ^ 32)
    (h : History sys H W line n sc c sh calls) (hh : H ≤ vcfg.height) (hw : W ≤ vcfg.width)
    (hl : ∀ l cells col, .sendLine l cells col ∈ calls → LineOk vcfg cells) : InKeeping vcfg line calls :=
  ⟨(history_inv hs h hn).2 vcfg hh hw hl, loud_history h⟩

/-- C74 (partial as `C25_transferred_partial` is).  The console is scrolling, and the calls the agent's
scraper made are those of a history of polls and resizes: when the client has received everything, its
terminal shows a row for each line of the console that had to be transferred, with the contents the
line had when it was last in or just above the window (a blank line at the bottom of the window may be
missing, and a line that the agent blanked for a resize may be shown as it was before). -/
theorem C74_console_partial (cfg : Cfg) (vcfg : Spec.Vt.Cfg) (e0 : Emu) (line : Int) (ts : List Tick)
    (s : State) (h : Watched cfg vcfg e0 line ts s) (hr : Received s)
    (sys : Sys) (hs : SysOk sys) (H W : Int) (n : Nat) (hn : n < 2 ^ 32) (sc : S) (c : Con) (t : Track)
    (hist : Session sys H W line n sc c t (callsMade cfg.env 0 (pollsOf ts) s.log))
    (hh : H ≤ vcfg.height) (hw : W ≤ vcfg.width)
    (hl : ∀ l cells col, .sendLine l cells col ∈ callsMade cfg.env 0 (pollsOf ts) s.log → LineOk vcfg cells) :
    ∃ off, ∀ l cells, t.want l = some cells →
      (∃ x, SameLine x cells ∧
        RowShows vcfg cfg.outputColor ((feed vcfg e0 s.conout.os.wire).rows (l + off)) x) ∨
      (AllBlank cells ∧ t.top ≤ l) ∨
      (∃ old x, t.blanked l = some old ∧ Blanked cells ∧ SameLine x old ∧
        RowShows vcfg cfg.outputColor ((feed vcfg e0 s.conout.os.wire).rows (l + off)) x) := by
  obtain ⟨_, off, hrows, _⟩ := C74_picture cfg vcfg e0 line ts s h hr _ rfl
    (history_keeping hs hn hist hh hw hl) _ rfl _ rfl
  refine ⟨off, ?_⟩
  intro l cells hw
  rcases (session_inv hs hist hn).1.core.transferred.lines l cells hw with ⟨x, h1, h2⟩ | ⟨_, h2, h3⟩ |
      ⟨old, x, h1, h2, h3, h4⟩
  · exact .inl ⟨x, h2, hrows l x h1⟩
  · exact .inr (.inl ⟨h2, h3⟩)
  · exact .inr (.inr ⟨old, x, h1, h2, h4, hrows l x h3⟩)

/-- C74 (partial as `C69_terminal_shows_partial` is).  The same when a program has changed the height
of the console's buffer: the terminal shows the rows of the window, one below the other. -/
theorem C74_window_partial (cfg : Cfg) (vcfg : Spec.Vt.Cfg) (e0 : Emu) (line : Int) (ts : List Tick)
    (s : State) (h : Watched cfg vcfg e0 line ts s) (hr : Received s)
    (sys : Sys) (hs : SysOk sys) (H W : Int) (n : Nat) (hn : n < 2 ^ 32) (sc : S) (c : Con)
    (rows : Int → Option (List ConsoleLine.Cell))
    (hist : History sys H W line n sc c (.direct rows) (callsMade cfg.env 0 (pollsOf ts) s.log))
    (hh : H ≤ vcfg.height) (hw : W ≤ vcfg.width)
    (hl : ∀ l cells col, .sendLine l cells col ∈ callsMade cfg.env 0 (pollsOf ts) s.log → LineOk vcfg cells)
    (e : Emu) (he : e = feed vcfg e0 s.conout.os.wire) :
    ∃ off, ∀ l cells, 0 ≤ l → rows l = some cells →
      e.top ≤ l + off ∧ l + off < e.top + vcfg.height ∧
      ∃ x, SameLine x cells ∧ RowShows vcfg cfg.outputColor (e.rows (l + off)) x := by
  obtain ⟨_, off, hrows, hscreen, _⟩ := C74_picture cfg vcfg e0 line ts s h hr _ rfl
    (history_keeping hs hn hist hh hw hl) _ rfl e he
  have hinv : DirectInv H n sc c rows _ := (history_inv hs hist hn).1
  refine ⟨off, ?_⟩
  intro l cells h0 hc
  obtain ⟨x, h1, h2⟩ := hinv.lines l cells hc
  have hhi := hinv.highest
  obtain ⟨k1, k2⟩ := hscreen l ⟨by rw [hinv.base]; exact h0, by omega⟩
    (sent_le_highest _ _ (fun l hl => absurd rfl hl) l (by rw [h1]; exact fun h => by cases h))
  exact ⟨k1, k2, x, h2, hrows l x h1⟩

/-- C74.  The cursor after a poll of a scrolling console: in the row of the line the console's cursor
is in (`line` in the sense of the rows of `C74_console_partial`: every line sent is shown in the row
of its number), in the same column; hidden if the console's cursor is not visible or not in the
window. -/
theorem C74_cursor (cfg : Cfg) (vcfg : Spec.Vt.Cfg) (e0 : Emu) (line : Int) (ts : List Tick)
    (s : State) (h : Watched cfg vcfg e0 line ts s) (hr : Received s)
    (sys : Sys) (hs : SysOk sys) (H W : Int) (n : Nat) (hn : n + 1 < 2 ^ 32) (sc : S) (c : Con) (t t' : Track)
    (calls : List TermCall) (hist : Session sys H W line n sc c t calls)
    (frozen : Bool) (v : SyncViews) (hv : Happens sys H W c t frozen v) (r : Result)
    (hp : scrapeBuffer sys sc frozen v = some r)
    (hist' : Session sys H W line (n + 1) r.state r.con t' (calls ++ r.calls))
    (hc : callsMade cfg.env 0 (pollsOf ts) s.log = calls ++ r.calls)
    (hh : H ≤ vcfg.height) (hw : W ≤ vcfg.width)
    (hl : ∀ l cells col, .sendLine l cells col ∈ calls ++ r.calls → LineOk vcfg cells)
    (e : Emu) (he : e = feed vcfg e0 s.conout.os.wire) (info : Info) (hinfo : info = v.first.info) :
    ∃ off,
      (∀ l cells, ((Want.start line).run ((calls ++ r.calls).map opOf)).sent l = some cells →
        RowShows vcfg cfg.outputColor (e.rows (l + off)) cells) ∧
      if v.cursorVisible = true ∧ info.window.left ≤ info.cursor.x ∧ info.cursor.x ≤ info.window.right ∧
        info.window.top ≤ info.cursor.y ∧ info.cursor.y ≤ info.window.bottom
      then e.row = info.cursor.y + t'.offset + off ∧ (e.col : Int) = info.cursor.x
      else e.cursorVisible = false := by
  obtain ⟨_, off, hrows, _, h1, h2, _, h3⟩ := C74_picture cfg vcfg e0 line ts s h hr _ hc.symm
    (history_keeping hs (by omega) hist' hh hw hl) _ rfl e he
  have hcur := C25_cursor sys hs H W line n hn sc c t t' calls hist frozen v hv r hp hist' _ rfl info hinfo
  refine ⟨off, hrows, ?_⟩
  split at hcur
  · rename_i hif
    rw [if_pos hif]
    exact ⟨by rw [h1, hcur.1], h2 _ hcur.2.1⟩
  · rename_i hif
    rw [if_neg hif]
    exact h3 hcur

/-! ## A concrete session -/

/-- The agent polls the console `demoCon 500` once, with the title `H` and the mouse wanted; input makes
it send a status query before that; the client reads everything. -/
def viewCfg : Cfg := ⟨⟨2 ^ 32, fun _ => true⟩, false, true, false, id, fun _ => ⟨.ok (5, 6), [], [], []⟩⟩

@[inherit_doc viewCfg]
def viewCalls : List TermCall :=
  [.sendLine 500 [⟨65, 7⟩, ⟨32, 7⟩, ⟨32, 7⟩] 1, .sendLine 501 [⟨66, 7⟩, ⟨32, 7⟩, ⟨32, 7⟩] (-1), .showCursor 1 500]

@[inherit_doc viewCfg]
def viewTicks : List Tick :=
  [⟨⟨0, .connected, [], [.done 1000 []], 0⟩, ⟨0, .connected, [.done 0 [97]], [], 0⟩,
      ⟨0, .connected, [], [], 0⟩, sampleIdle, 1, some ⟨true, false, [72], viewCalls, []⟩⟩,
    ⟨sampleIdle, sampleIdle, ⟨0, .connected, [], [.done 1000 [], .done 1000 [], .done 1000 []], 0⟩, sampleIdle, 0, none⟩]

@[inherit_doc viewCfg]
def viewRun : Option State :=
  (start viewCfg [[1], [2]] (true, true, false) 3 2 [.reset false 500] []).bind (loop viewCfg · viewTicks)

deriving instance DecidableEq for Agent.TermCall

theorem view_facts : ∃ s, viewRun = some s ∧ Watched viewCfg demoCfg demoEmu 500 viewTicks s ∧
    Received s ∧ callsMade viewCfg.env 0 (pollsOf viewTicks) s.log = viewCalls ∧
    s.conout.pipe.opened = true ∧ NamedPipe.bytesToSend s.conout.pipe = some 0 ∧
    lastMouse (pollsMade (pollsOf viewTicks) s.log) = true ∧ .childExited ∉ s.log ∧
    lastTitle (pollsMade (pollsOf viewTicks) s.log) = some [72] ∧
    .conout .dsr [0x1b, 0x5b, 0x36, 0x6e] ∈ s.log := by
  have hs : viewRun.isSome = true := by decide +kernel
  obtain ⟨s, hs⟩ := Option.isSome_iff_exists.1 hs
  have hw : Watched viewCfg demoCfg demoEmu 500 viewTicks s := by
    refine ⟨?_, rfl, ?_, demo_cfg, demo_fresh⟩
    · obtain ⟨s0, h0, h1⟩ := Option.bind_eq_some_iff.1 hs
      exact ⟨_, _, _, _, _, s0, h0, h1⟩
    · intro t ht e he b hb
      have : ∀ t ∈ viewTicks, ∀ e ∈ t.poll, ∀ b ∈ viewCfg.utf8FromWide e.title, 0x20 ≤ b ∧ b ≠ 0x7f := by
        decide +kernel
      exact this t ht e he b hb
  have key : ∀ x ∈ viewRun, callsMade viewCfg.env 0 (pollsOf viewTicks) x.log = viewCalls ∧
      x.conout.pipe.opened = true ∧ NamedPipe.bytesToSend x.conout.pipe = some 0 ∧
      lastMouse (pollsMade (pollsOf viewTicks) x.log) = true ∧ .childExited ∉ x.log ∧
      lastTitle (pollsMade (pollsOf viewTicks) x.log) = some [72] ∧
      .conout .dsr [0x1b, 0x5b, 0x36, 0x6e] ∈ x.log := by decide +kernel
  obtain ⟨k1, k2, k3, k4⟩ := key s hs
  obtain ⟨_, _, _, _, _, s0, r1, r2⟩ := hw.run
  exact ⟨s, hs, hw, C74_received_open viewCfg viewTicks s ⟨_, _, _, _, _, _, s0, r1, r2⟩ k2 k3, k1, k2, k3, k4⟩

/-- The history behind it: one poll of the console. -/
theorem view_session : ∃ r, scrapeBuffer demoSys (Scraper.init ⟨3, 2⟩ 500).1 true (demoViews (demoCon 500)) = some r ∧
    r.calls = viewCalls ∧
    Session demoSys 2 3 500 1 r.state r.con
      ((Track.start 500).scrape 0 (demoCon 500).info (demoCon 500) 0xFFFF) viewCalls := by
  obtain ⟨r, he, hs, _⟩ := demo_poll 500 (by decide) (by decide) true
  have : ∀ x ∈ scrapeBuffer demoSys (Scraper.init ⟨3, 2⟩ 500).1 true (demoViews (demoCon 500)),
      x.calls = viewCalls := by decide +kernel
  have hc := this r he
  exact ⟨r, he, hc, hc ▸ hs⟩

theorem view_lines : ∀ l cells col, .sendLine l cells col ∈ viewCalls → LineOk demoCfg cells := by
  have key : ∀ cells ∈ viewCalls.filterMap (fun c => match c with | .sendLine _ cells _ => some cells | _ => none),
      cells ≠ [] ∧ cells.length ≤ 8 ∧ (∀ c ∈ cells, c.ch < 65536) ∧
      ((Spec.Screen.glyphsOf cells).any fun gs => gs.all fun g => decide (Spec.Screen.Showable demoCfg g)) = true := by
    decide +kernel
  intro l cells col hm
  obtain ⟨h1, h2, h3, h4⟩ := key cells (List.mem_filterMap.2 ⟨_, hm, rfl⟩)
  refine ⟨h1, h2, h3, ?_⟩
  simp only [Option.any_eq_true] at h4
  obtain ⟨gs, hg, ha⟩ := h4
  exact ⟨gs, hg, by simpa using ha⟩

/-- Beside C74: the hypotheses of all the theorems hold together, and the conclusions are as expected:
the client's terminal has the title `H`, the mouse modes on, and the cursor in column 1. -/
example : ∃ s, viewRun = some s ∧
    (feed demoCfg demoEmu s.conout.os.wire).modes 1003 = true ∧
    (feed demoCfg demoEmu s.conout.os.wire).title = [0x30, 0x3b, 72] ∧
    (∃ off, ∀ l cells,
      ((Track.start 500).scrape 0 (demoCon 500).info (demoCon 500) 0xFFFF).want l = some cells →
      (∃ x, SameLine x cells ∧
        RowShows demoCfg true ((feed demoCfg demoEmu s.conout.os.wire).rows (l + off)) x) ∨
      (AllBlank cells ∧ ((Track.start 500).scrape 0 (demoCon 500).info (demoCon 500) 0xFFFF).top ≤ l) ∨
      (∃ old x, ((Track.start 500).scrape 0 (demoCon 500).info (demoCon 500) 0xFFFF).blanked l = some old ∧
        Blanked cells ∧ SameLine x old ∧
        RowShows demoCfg true ((feed demoCfg demoEmu s.conout.os.wire).rows (l + off)) x)) ∧
    (∃ cells, ((Track.start 500).scrape 0 (demoCon 500).info (demoCon 500) 0xFFFF).want 501 = some cells ∧
      ¬ AllBlank cells) ∧
    ((feed demoCfg demoEmu s.conout.os.wire).col : Int) = 1 := by
  obtain ⟨s, h1, h2, h3, h4, h5, h6, h7, h8, h9, h10⟩ := view_facts
  obtain ⟨r, r1, r2, r3⟩ := view_session
  have hk : InKeeping demoCfg 500 viewCalls :=
    history_keeping demoSys_ok (by decide) r3 (by decide) (by decide) view_lines
  refine ⟨s, h1, ?_, ?_, ?_, ?_, ?_⟩
  · exact (C74_mouse viewCfg demoCfg demoEmu 500 viewTicks s h2 h3 _ h4.symm hk 1003 (by decide)).2 ⟨h7, h8⟩
  · rcases C74_title_partial viewCfg demoCfg demoEmu 500 viewTicks s h2 h3 _ h4.symm hk (.inl h5) [72] h9 with h | h
    · exact h
    · exact absurd h.1 (by decide)
  · exact C74_console_partial viewCfg demoCfg demoEmu 500 viewTicks s h2 h3 demoSys demoSys_ok 2 3 1 (by decide)
      _ _ _ (h4 ▸ r3) (by decide) (by decide) (h4 ▸ view_lines)
  · refine ⟨_, rfl, ?_⟩
    unfold AllBlank
    decide +kernel
  · obtain ⟨hh, _⟩ := demo_first 500 (by decide) (by decide) true
    obtain ⟨off, _, hcur⟩ := C74_cursor viewCfg demoCfg demoEmu 500 viewTicks s h2 h3 demoSys demoSys_ok 2 3 0
      (by decide) _ _ _ _ [] (demo_start 500 (by decide) (by decide)) true _ hh r r1 (by rw [r2]; exact r3)
      (by rw [r2]; exact h4) (by decide) (by decide) (by rw [r2]; exact view_lines) _ rfl _ rfl
    rw [if_pos (by decide)] at hcur
    exact hcur.2

end Winpty.Props
