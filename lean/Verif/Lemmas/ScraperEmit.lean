import Verif.Lemmas.ScraperLines

/-! The invariant of scraping, and the last part of a scrape. -/
namespace Winpty.Scraper

open Winpty.Spec.Scrape
open Winpty.SmallRect
open Winpty.ConsoleLine (Cell Obj Rep)
open Winpty.Agent (TermCall)
open Winpty.Spec.Term

/-- The first line that a scrape looks at if the window does not move. -/
def low (s : S) : Int :=
  if s.dirtyWindowTop = -1 then s.scrapedLineCount
  else min s.scrapedLineCount (s.dirtyWindowTop + s.scrolledCount)

theorem low_le (s : S) : low s ≤ s.scrapedLineCount := by unfold low; split <;> omega

/-- What the scraper knows agrees with what had to be transferred and with what was sent.  `H` bounds
the height of the window. -/
structure Core (H : Int) (s : S) (t : Track) (w : Want) : Prop where
  mode : s.directMode = false
  scrolled : 0 ≤ s.scrolledCount
  inBuf : 0 ≤ low s - s.scrolledCount ∧ s.scrapedLineCount - s.scrolledCount ≤ 2999
  maxLo : -1 ≤ s.maxBufferedLine
  maxHi : s.maxBufferedLine < s.dirtyLineCount + s.scrolledCount
  dirty : 0 ≤ s.dirtyLineCount ∧ s.dirtyLineCount ≤ 3000
  deep : s.dirtyWindowTop ≠ -1 → s.scrapedLineCount ≤ s.dirtyLineCount + s.scrolledCount
  objs : ∀ i, ∃ rec obs, Rep (s.bufferData i) rec obs
  recs : ∀ l, low s ≤ l → l ≤ s.maxBufferedLine →
    ∃ rec obs cells, Rep (s.bufferData (idx l)) rec obs ∧ w.sent l = some cells ∧
      (SameLine rec cells ∨ (t.blanked l ≠ none ∧ SameLine rec [⟨0x20, 7⟩]))
  lines : ∀ l cells, t.want l = some cells →
    (∃ x, w.sent l = some x ∧ SameLine x cells) ∨
    (w.sent l = none ∧ AllBlank cells ∧ s.scrapedLineCount ≤ l ∧ s.maxBufferedLine < l) ∨
    (∃ old x, t.blanked l = some old ∧ Blanked cells ∧ w.sent l = some x ∧ SameLine x old)
  olds : ∀ l old, t.blanked l = some old →
    ∃ x, w.sent l = some x ∧ (SameLine x old ∨ SameLine x [⟨0x20, 7⟩])
  only : ∀ l, t.want l = none → w.sent l = none
  unsent : ∀ l, s.maxBufferedLine < l → w.sent l = none
  noGap : ∀ l, w.base ≤ l → l < s.scrapedLineCount → w.sent l ≠ none
  base : w.base ≤ low s
  start : w.base = t.base
  highest : w.highest < low s + H ∧ w.highest ≤ 2999 + s.scrolledCount
  top : t.top = s.scrapedLineCount
  counter : s.syncCounter < 2 ^ 32
  kept : ∀ l, low s ≤ l → l ≤ s.maxBufferedLine → ∃ rec obs, Rep (s.bufferData (idx l)) rec obs ∧
    (t.blanked l = none → t.want l = some rec) ∧
    (t.blanked l ≠ none → Blanked rec ∧ ∀ col c, obs col = some c → c = ⟨0x20, 7⟩)

theorem Core.transferred {H : Int} {s : S} {t : Track} {w : Want} (h : Core H s t w) :
    Transferred t w := by
  constructor
  · intro l cells hl
    rcases h.lines l cells hl with h1 | ⟨h1, h2, h3, _⟩ | h1
    · exact .inl h1
    · exact .inr (.inl ⟨h1, h2, by rw [h.top]; exact h3⟩)
    · exact .inr (.inr h1)
  · exact h.only
  · intro l h1 h2; exact h.noGap l h1 (by rw [← h.top]; exact h2)
  · rw [h.top]; exact Int.le_trans h.base (low_le s)

/-- What is the same line as a blanked one is blanked. -/
theorem blanked_of_same {a b : List Cell} (h1 : SameLine a b) (h2 : SameLine a [⟨0x20, 7⟩]) :
    Blanked b := by
  obtain ⟨p, ⟨hp, n, hn⟩, _, m, rfl⟩ := SameLine.trans (SameLine.symm h2) h1
  have he : p = [⟨0x20, 7⟩] := by
    cases p with
    | nil => exact absurd rfl hp
    | cons x p =>
      cases p with
      | nil =>
        cases n with
        | zero => simpa using hn.symm
        | succ n => simp [List.replicate_succ] at hn
      | cons y p => simp at hn
  subst he
  refine ⟨by simp, ?_⟩
  intro c hc
  simp only [List.mem_append, List.mem_singleton, List.mem_replicate] at hc
  rcases hc with hc | ⟨_, hc⟩
  · exact hc
  · rw [hc]; rfl

theorem same_of_blanked {a : List Cell} (h : Blanked a) : SameLine a [⟨0x20, 7⟩] := by
  obtain ⟨h1, h2⟩ := h
  refine ⟨[⟨0x20, 7⟩], ⟨by simp, a.length - 1, ?_⟩, extends_refl (by simp)⟩
  have hr : a = List.replicate a.length ⟨0x20, 7⟩ := List.eq_replicate_iff.mpr ⟨rfl, h2⟩
  have hl : a.length = (a.length - 1) + 1 := by
    have := List.length_pos_iff.mpr h1; omega
  rw [hl, List.replicate_succ] at hr
  exact hr

/-- The state is as it must be when the lines are read and sent. -/
structure Ready (s : S) (info : Info) : Prop where
  window : s.dirtyWindowTop = info.window.top
  pos : 1 ≤ s.dirtyLineCount
  top : info.window.top ≤ s.dirtyLineCount
  cursor : info.cursor.y + 1 ≤ s.dirtyLineCount

/-- The state after a scrape that has read the rows `Q`. -/
structure Rest (s : S) (info : Info) (Q : Int → List Cell) : Prop where
  scraped : s.scrapedLineCount = info.window.top + s.scrolledCount
  window : s.dirtyWindowTop = info.window.top
  dirty : info.cursor.y + 1 ≤ s.dirtyLineCount ∧ info.window.top ≤ s.dirtyLineCount ∧
    1 ≤ s.dirtyLineCount
  below : ∀ r, s.dirtyLineCount ≤ r → r ≤ info.window.bottom →
    anyDirtyCell (endAttr Q (r - 1)) (Q r) = false
  same : ∀ l, info.window.top + s.scrolledCount ≤ l →
    l < min s.dirtyLineCount (info.window.bottom + 1) + s.scrolledCount →
    l ≤ s.maxBufferedLine ∧ ∃ obs, Rep (s.bufferData (idx l)) (Q (l - s.scrolledCount)) obs

/-- It depends only on the rows of the window and the one above. -/
theorem Rest.congr {s : S} {info : Info} {Q Q' : Int → List Cell} (h : Rest s info Q)
    (hq : ∀ r, 0 ≤ r → info.window.top - 1 ≤ r → r ≤ info.window.bottom → Q' r = Q r)
    (ht : 0 ≤ info.window.top) : Rest s info Q' := by
  obtain ⟨h1, h2, h3, h4, h5⟩ := h
  refine ⟨h1, h2, h3, ?_, ?_⟩
  · intro r g1 g2
    unfold endAttr
    rw [hq r (by omega) (by omega) g2, hq (r - 1) (by omega) (by omega) (by omega)]
    exact h4 r g1 g2
  · intro l g1 g2
    rw [hq _ (by omega) (by omega) (by omega)]
    exact h5 l g1 g2

theorem Rest.same_lines {s s' : S} {info : Info} {Q : Int → List Cell} (h : Rest s info Q)
    (h1 : s' = { s with syncRow := s'.syncRow, syncCounter := s'.syncCounter,
                        readBuffer := s'.readBuffer }) : Rest s' info Q := by
  obtain ⟨a, b, c, d, e⟩ := h
  rw [h1]
  exact ⟨a, b, c, d, e⟩

theorem Ready.first {s : S} {info : Info} (h : Ready s info) (hi : 0 ≤ info.window.top) :
    firstVirtLine s info.window = low s ∧ low s ≤ info.window.top + s.scrolledCount := by
  unfold low firstVirtLine
  rw [h.window, if_neg (by omega)]
  omega

theorem height_eq {info : Info} (h : InfoOk info) :
    info.window.height = info.window.bottom - info.window.top + 1 := by
  obtain ⟨_, _, _, _, _, _, h1, h2, h3, _⟩ := h
  simp only [Rect.height, short]
  omega

/-- Sending lines and placing or hiding the cursor. -/
def emitted (shown : Bool) (cc cl : Int) (sent : List TermCall) : List TermCall :=
  (if shown then [] else [.hideCursor]) ++ sent ++ (if shown then [.showCursor cc cl] else [])

theorem emitted_run (shown : Bool) (cc cl : Int) (R : Int → List Cell) (m : Int) (n : Nat)
    (w : Want) :
    (w.run ((emitted shown cc cl (sends R cl cc m n)).map opOf)).base = w.base ∧
    (w.run ((emitted shown cc cl (sends R cl cc m n)).map opOf)).highest ≤
      max (max w.highest (m + n - 1)) (if shown then cl else w.highest) ∧
    w.highest ≤ (w.run ((emitted shown cc cl (sends R cl cc m n)).map opOf)).highest ∧
    ∀ l, (w.run ((emitted shown cc cl (sends R cl cc m n)).map opOf)).sent l =
      if m ≤ l ∧ l < m + n then some (R l) else w.sent l := by
  unfold emitted
  cases shown with
  | true =>
    obtain ⟨h1, h2, h3, h4⟩ := run_sends R cl cc n m w
    simp only [if_true, List.nil_append, List.map_append, List.map_cons, List.map_nil, run_append, opOf]
    generalize w.run ((sends R cl cc m n).map opOf) = w1 at *
    have e1 : (w1.run [.show cc cl]).base = w1.base := rfl
    have e2 : (w1.run [.show cc cl]).highest = max w1.highest cl := rfl
    have e3 : (w1.run [.show cc cl]).sent = w1.sent := rfl
    rw [e1, e2, e3]
    exact ⟨h1, by omega, by omega, h4⟩
  | false =>
    simp only [Bool.false_eq_true, if_false, List.append_nil, List.singleton_append, List.map_cons, opOf]
    obtain ⟨h1, h2, h3, h4⟩ := run_sends R cl cc n m (w.step .hide)
    have e0 : ∀ ops, w.run (.hide :: ops) = (w.step .hide).run ops := fun _ => rfl
    have e1 : (w.step .hide).base = w.base := rfl
    have e2 : (w.step .hide).highest = w.highest := rfl
    have e3 : (w.step .hide).sent = w.sent := rfl
    rw [e0]
    rw [e1] at h1
    rw [e2] at h2 h3
    rw [e3] at h4
    exact ⟨h1, by omega, h3, h4⟩

theorem sends_mem {R : Int → List Cell} {cl cc m : Int} {n : Nat} {c : TermCall}
    (h : c ∈ sends R cl cc m n) :
    ∃ i : Nat, i < n ∧ c = .sendLine (m + i) (R (m + i)) (if m + i = cl then cc else -1) := by
  simp only [sends, List.mem_map, List.mem_range] at h
  obtain ⟨i, h1, h2⟩ := h
  exact ⟨i, h1, h2.symm⟩

theorem emitted_not_clears (shown : Bool) (cc cl : Int) (R : Int → List Cell) (m : Int) (n : Nat) :
    ¬ Clears (emitted shown cc cl (sends R cl cc m n)) := by
  rintro ⟨b, line, h⟩
  unfold emitted at h
  simp only [List.mem_append] at h
  rcases h with (h | h) | h
  · cases shown <;> simp at h
  · obtain ⟨i, _, h2⟩ := sends_mem h; cases h2
  · cases shown <;> simp at h

theorem emitted_ok (cfg : Spec.Vt.Cfg) (shown : Bool) (cc cl : Int) (R : Int → List Cell) (m : Int)
    (n : Nat) (w : Want) (hb : w.base ≤ m) (hh : w.highest < m + cfg.height) (hc : 1 ≤ cfg.height)
    (hshow : shown = true → w.base ≤ cl ∧ max w.highest (m + n - 1) < cl + cfg.height ∧ 0 ≤ cc ∧
      cc < cfg.width)
    (hl : ∀ line cells col, .sendLine line cells col ∈ emitted shown cc cl (sends R cl cc m n) →
      LineOk cfg cells) :
    OpsOk cfg w ((emitted shown cc cl (sends R cl cc m n)).map opOf) := by
  have hrows : ∀ l, m ≤ l → l < m + n → LineOk cfg (R l) := by
    intro l g1 g2
    refine hl l (R l) (if l = cl then cc else -1) ?_
    unfold emitted
    simp only [List.mem_append]
    refine .inl (.inr ?_)
    simp only [sends, List.mem_map, List.mem_range]
    refine ⟨(l - m).toNat, by omega, ?_⟩
    simp only [show m + (((l - m).toNat : Nat) : Int) = l by omega]
  unfold emitted
  cases shown with
  | true =>
    obtain ⟨k1, k2, k3, k4⟩ := hshow rfl
    obtain ⟨h1, h2, h3, h4⟩ := run_sends R cl cc n m w
    simp only [if_true, List.nil_append, List.map_append, List.map_cons, List.map_nil, opOf]
    rw [opsOk_append]
    refine ⟨opsOk_sends cfg R cl cc n m w hb hh hc hrows, ⟨⟨?_, ?_⟩, k3, k4⟩, trivial⟩
    · rw [h1]; exact k1
    · omega
  | false =>
    simp only [Bool.false_eq_true, if_false, List.append_nil, List.singleton_append, List.map_cons, opOf]
    exact ⟨trivial, opsOk_sends cfg R cl cc n m (w.step .hide) hb hh hc hrows⟩

/-- What the last part of a scrape does; `Q r` is what was read of row `r`. -/
structure Emitted (H : Int) (s : S) (t : Track) (w : Want) (info : Info) (visible : Bool) (Q : Int → List Cell)
    (f : Int) (s' : S) (calls : List TermCall) : Prop where
  core : ∀ t' : Track, t'.top = info.window.top + s.scrolledCount → t'.base = t.base →
    (∀ l, t'.want l =
      if f ≤ l ∧ l ≤ info.window.bottom + s.scrolledCount then
        some (Q (l - s.scrolledCount)) else t.want l) →
    (∀ l, t'.blanked l =
      if (f ≤ l ∧ l ≤ info.window.bottom + s.scrolledCount) ∧ ¬ Blanked (Q (l - s.scrolledCount)) then none
      else t.blanked l) →
    Core H s' t' (w.run (calls.map opOf))
  sync : s'.syncRow = s.syncRow ∧ s'.syncCounter = s.syncCounter
  scrolled : s'.scrolledCount = s.scrolledCount
  scraped : s'.scrapedLineCount = info.window.top + s.scrolledCount
  window : s'.dirtyWindowTop = s.dirtyWindowTop
  shape : ∃ m n shown cl cc, calls = emitted shown cc cl (sends (fun l => Q (l - s.scrolledCount)) cl cc m n)
    ∧ f ≤ m ∧ (0 < n → m ≤ s.maxBufferedLine + 1 ∨ m = f)
  ok : ∀ cfg : Spec.Vt.Cfg, H ≤ cfg.height → info.size.x ≤ cfg.width →
    (∀ line cells col, .sendLine line cells col ∈ calls → LineOk cfg cells) →
    OpsOk cfg w (calls.map opOf)
  all : info.window.bottom + 1 ≤ s.dirtyLineCount → ∀ l, f ≤ l →
    l ≤ info.window.bottom + s.scrolledCount → (w.run (calls.map opOf)).sent l ≠ none
  read : s'.readBuffer = s.readBuffer
  why : ∀ l rest, sentLines calls = l :: rest → w.sent l = none ∨
    ((t.blanked l = none → t.want l ≠ some (Q (l - s.scrolledCount))) ∧
      (t.blanked l ≠ none → ¬ Blanked (Q (l - s.scrolledCount))))
  rest : Rest s' info Q
  ends : ∃ lines, calls = emitted (cursorShown info visible) info.cursor.x
      (info.cursor.y + s.scrolledCount) lines ∧
    (∀ call ∈ lines, ∃ l cells col, call = TermCall.sendLine l cells col) ∧
    (Rest s info Q → lines = [])

theorem emitted_congr {shown : Bool} {cc cl cc' cl' : Int} {lines : List TermCall}
    (h : shown = true → cc = cc' ∧ cl = cl') : emitted shown cc cl lines = emitted shown cc' cl' lines := by
  cases shown with
  | true => obtain ⟨rfl, rfl⟩ := h rfl; rfl
  | false => rfl

/-- The first line sent. -/
theorem emitted_first {shown : Bool} {cc cl : Int} {R : Int → List Cell} {m : Int} {n : Nat} {l : Int}
    {rest : List Int} (h : sentLines (emitted shown cc cl (sends R cl cc m n)) = l :: rest) :
    l = m ∧ 0 < n := by
  have happ : ∀ a b : List TermCall, sentLines (a ++ b) = sentLines a ++ sentLines b := fun a b => by
    simp only [sentLines, List.filterMap_append]
  have h1 : sentLines (if shown = true then [] else [TermCall.hideCursor]) = [] := by cases shown <;> rfl
  have h2 : sentLines (if shown = true then [TermCall.showCursor cc cl] else []) = [] := by
    cases shown <;> rfl
  unfold emitted at h
  rw [happ, happ, h1, h2, List.nil_append, List.append_nil] at h
  cases n with
  | zero => simp [sends, sentLines] at h
  | succ n =>
    rw [sends_cons] at h
    simp only [sentLines, List.filterMap_cons, List.cons.injEq] at h
    exact ⟨h.1.symm, by omega⟩

set_option maxHeartbeats 1600000 in
theorem emit_spec (H : Int) (s : S) (t : Track) (w : Want) (info : Info) (visible : Bool)
    (Q : Int → List Cell) (hc : Core H s t w) (hi : InfoOk info) (hr : Ready s info)
    (hH : info.window.height ≤ H)
    (hrow : ∀ r, firstReadLine s info.window ≤ r → r < stopReadLine s info.window →
      rowAt s.readBuffer s.readBuffer.rect.width r = some (Q r) ∧ Q r ≠ []) :
    ∃ s' calls, emit s info visible = some (s', calls) ∧ Emitted H s t w info visible Q (low s) s' calls := by
  have hheight := height_eq hi
  obtain ⟨_, _, hX, _, hl1, hl2, ht0, htb, hb, hcy0, hcy1, hcx0, hcx1⟩ := hi
  obtain ⟨hfv, hfirst⟩ := hr.first ht0
  have hin := hc.inBuf
  have hfs := low_le s
  have hrecs := hc.recs
  have hkept := hc.kept
  have hbase := hc.base
  have hhigh := hc.highest
  have hrestF : Rest s info Q → low s = info.window.top + s.scrolledCount := by
    intro h; unfold low; rw [h.scraped, h.window, if_neg (by omega)]; omega
  generalize low s = f at *
  have hfr : firstReadLine s info.window =
      min (f - s.scrolledCount) (s.dirtyLineCount - 1) := by
    unfold firstReadLine; rw [hfv]
  have hsr : stopReadLine s info.window = max (info.window.bottom + 1) s.dirtyLineCount := by
    unfold stopReadLine; omega
  rw [hfr, hsr] at hrow
  have hscr := hc.scrolled
  have hdirty := hc.dirty
  have hpos := hr.pos
  have htop := hr.top
  have hmh := hc.maxHi
  have hml := hc.maxLo
  -- the scan
  obtain ⟨hp1, hp2⟩ := hrow (s.dirtyLineCount - 1) (by omega) (by omega)
  obtain ⟨d, hd, hdlo, hdhi, hdb⟩ := scanLoop_spec s.readBuffer s.readBuffer.rect.width Q
    (info.window.top + info.window.height - s.dirtyLineCount).toNat s.dirtyLineCount
    ((Q (s.dirtyLineCount - 1)).getLast hp2).attr s.dirtyLineCount (by omega)
    (fun r g1 g2 => hrow r (by omega) (by omega))
  have hscan : scanForDirtyLines s info.window = some { s with dirtyLineCount := d } := by
    unfold scanForDirtyLines
    rw [if_neg (by omega), hp1]
    simp only [List.getLast?_eq_some_getLast hp2, hd]
  have hd3000 : d ≤ 3000 := by omega
  have hdb' : ∀ r, d ≤ r → r ≤ info.window.bottom → AllBlank (Q r) := fun r g1 g2 =>
    hdb r (by omega) (by omega) g1
  have hend : ((Q (s.dirtyLineCount - 1)).getLast hp2).attr = endAttr Q (s.dirtyLineCount - 1) := by
    unfold endAttr; rw [List.getLast?_eq_some_getLast hp2]; rfl
  rw [hend] at hd
  obtain ⟨hbelow, hkeepD⟩ := scanLoop_rest s.readBuffer s.readBuffer.rect.width Q _ _ _ d (Int.le_refl _)
    (fun r g1 g2 => hrow r (by omega) (by omega)) hd
  have hrestD : Rest s info Q → d = s.dirtyLineCount := fun h => hkeepD fun r g1 g2 =>
    h.below r g1 (by omega)
  have hbelow' : ∀ r, d ≤ r → r ≤ info.window.bottom → anyDirtyCell (endAttr Q (r - 1)) (Q r) = false :=
    fun r g1 g2 => hbelow r (by omega) (by omega) g1
  clear hdb hdhi hd hp1 hend hbelow hkeepD
  -- the loop
  unfold emit
  rw [hscan]
  simp only
  have hfv1 : firstVirtLine { s with dirtyLineCount := d } info.window = f := hfv
  have hsv : stopVirtLine { s with dirtyLineCount := d } info.window =
      min d (info.window.bottom + 1) + s.scrolledCount := by
    unfold stopVirtLine; simp only; omega
  rw [hfv1, hsv]
  generalize hN : (min d (info.window.bottom + 1) + s.scrolledCount - f).toNat = N
  have hstop : f + N = min d (info.window.bottom + 1) + s.scrolledCount := by omega
  have hs1 : f + N ≤ d + s.scrolledCount := by omega
  have hs2 : f + N ≤ info.window.bottom + 1 + s.scrolledCount := by omega
  have hs3 : f + N < info.window.bottom + 1 + s.scrolledCount →
    f + N = d + s.scrolledCount := by omega
  have hs4 : info.window.top + s.scrolledCount ≤ f + N := by omega
  have hrow' : ∀ l, f ≤ l → l < f + N →
      rowAt s.readBuffer s.readBuffer.rect.width (l - s.scrolledCount) = some (Q (l - s.scrolledCount)) ∧
      Q (l - s.scrolledCount) ≠ [] := fun l g1 g2 => hrow (l - s.scrolledCount) (by omega) (by omega)
  clear hrow hstop hfr hsr hsv hfv hfv1 hscan
  generalize hcl : cursorLine { s with dirtyLineCount := d } info visible = cl
  generalize hcc : cursorColumn info visible = cc
  generalize hsh : cursorShown info visible = shown
  have hcl' : shown = true → cl = info.cursor.y + s.scrolledCount ∧ cc = info.cursor.x ∧
      info.window.top ≤ info.cursor.y ∧ info.cursor.y ≤ info.window.bottom := by
    intro h
    subst h
    unfold cursorLine at hcl
    unfold cursorColumn at hcc
    rw [hsh, if_pos rfl] at hcl hcc
    unfold cursorShown at hsh
    simp only [Rect.containsCoord, Bool.and_eq_true, decide_eq_true_eq] at hsh
    exact ⟨hcl.symm, hcc.symm, by omega, by omega⟩
  obtain ⟨s', calls, m, hl, hs⟩ := sendLoop_spec (fun l => Q (l - s.scrolledCount)) cl cc N
    { s with dirtyLineCount := d } f false (by omega) (by omega) hc.objs
    hrow'
  clear hN
  rw [hl]
  simp only
  refine ⟨_, _, rfl, ?_⟩
  have hst := hs.state
  have hlo := hs.lo
  have hhi := hs.hi
  simp only at hst hlo hhi
  have hM : (f + N - m).toNat = (f + N - m).toNat := rfl
  generalize hn : (f + N - m).toNat = n at hM
  have hcalls : calls = sends (fun l => Q (l - s.scrolledCount)) cl cc m n := by
    rw [hs.calls]; simp only [hn]
  subst hcalls
  have hmn : m + n = f + N := by omega
  clear hn hM
  have hsame : ∀ l, f ≤ l → l < m → l ≤ s.maxBufferedLine ∧
      ∀ rec obs, Rep (s.bufferData (idx l)) rec obs → SameLine rec (Q (l - s.scrolledCount)) := hs.same
  have hothers := hs.others
  have hrecd := hs.recorded
  simp only at hothers hrecd
  obtain ⟨w1, w2, w3, w4⟩ := emitted_run shown cc cl (fun l => Q (l - s.scrolledCount)) m n w
  have hshape : (if shown = true then [] else [TermCall.hideCursor]) ++
      sends (fun l => Q (l - s.scrolledCount)) cl cc m n ++
      (if shown = true then [TermCall.showCursor cc cl] else []) =
      emitted shown cc cl (sends (fun l => Q (l - s.scrolledCount)) cl cc m n) := rfl
  rw [hshape]
  have e1 : s'.directMode = s.directMode := by rw [hst]
  have e2 : s'.scrolledCount = s.scrolledCount := by rw [hst]
  have e3 : s'.dirtyLineCount = d := by rw [hst]
  have e4 : s'.maxBufferedLine = if m < f + N then
      max s.maxBufferedLine (f + N - 1) else s.maxBufferedLine := by rw [hst]
  have e5 : s'.dirtyWindowTop = s.dirtyWindowTop := by rw [hst]
  have e6 : s'.syncCounter = s.syncCounter := by rw [hst]
  have e7 : s'.syncRow = s.syncRow := by rw [hst]
  have hne : ∀ l, f ≤ l → l < f + N → Q (l - s.scrolledCount) ≠ [] :=
    fun l g1 g2 => (hrow' l g1 g2).2
  -- every line of the loop has been sent
  have hsent : ∀ l, f ≤ l → l < f + N →
      (∃ x, (w.run ((emitted shown cc cl (sends (fun l => Q (l - s.scrolledCount)) cl cc m n)).map
        opOf)).sent l = some x ∧ SameLine x (Q (l - s.scrolledCount))) ∨
      (∃ old x, t.blanked l = some old ∧ Blanked (Q (l - s.scrolledCount)) ∧
        (w.run ((emitted shown cc cl (sends (fun l => Q (l - s.scrolledCount)) cl cc m n)).map
        opOf)).sent l = some x ∧ SameLine x old) := by
    intro l g1 g2
    rw [w4]
    by_cases hlm : m ≤ l
    · rw [if_pos ⟨hlm, by omega⟩]
      exact .inl ⟨_, rfl, SameLine.refl (hne l g1 g2)⟩
    · rw [if_neg (by omega)]
      obtain ⟨k1, k2⟩ := hsame l g1 (by omega)
      obtain ⟨rec, obs, cells, r1, r2, r3⟩ := hrecs l g1 k1
      have hq := k2 rec obs r1
      rcases r3 with r3 | ⟨r3, r4⟩
      · exact .inl ⟨cells, r2, SameLine.trans (SameLine.symm r3) hq⟩
      · cases hbl : t.blanked l with
        | none => exact absurd hbl r3
        | some old =>
          obtain ⟨x, hx, hx'⟩ := hc.olds l old hbl
          have hB := blanked_of_same hq r4
          rcases hx' with hx' | hx'
          · exact .inr ⟨old, x, rfl, hB, hx, hx'⟩
          · exact .inl ⟨x, hx, SameLine.trans hx' (SameLine.symm (same_of_blanked hB))⟩
  have hsent' : ∀ l, f ≤ l → l < f + N →
      (w.run ((emitted shown cc cl (sends (fun l => Q (l - s.scrolledCount)) cl cc m n)).map
        opOf)).sent l ≠ none := by
    intro l g1 g2
    rcases hsent l g1 g2 with ⟨x, hx, _⟩ | ⟨_, x, _, _, hx, _⟩ <;>
      (rw [hx]; exact fun h => by cases h)
  have hkeep : ∀ l, (l < f ∨ f + N ≤ l) →
      (w.run ((emitted shown cc cl (sends (fun l => Q (l - s.scrolledCount)) cl cc m n)).map
        opOf)).sent l = w.sent l := by
    intro l g1
    rw [w4, if_neg (by omega)]
  have hmax : ∀ l, s'.maxBufferedLine < l → s.maxBufferedLine < l ∧
      (l < f + N → l < m) := by
    intro l g
    rw [e4] at g
    by_cases h : m < f + N
    · rw [if_pos h] at g; omega
    · rw [if_neg h] at g; omega
  constructor
  · intro t' ht' hb' hw' hbl'
    have elow : low { s' with scrapedLineCount := info.window.top + s'.scrolledCount } =
        info.window.top + s.scrolledCount := by
      unfold low
      simp only
      rw [e5, hr.window, e2, if_neg (by omega)]
      omega
    constructor
    · simp only; rw [e1]; exact hc.mode
    · simp only; rw [e2]; exact hscr
    · rw [elow]; simp only; rw [e2]; omega
    · simp only; rw [e4]; split <;> omega
    · simp only; rw [e4, e3, e2]; split <;> omega
    · simp only; rw [e3]; omega
    · intro _; simp only; rw [e3]; omega
    · intro i
      simp only
      by_cases hx : ∃ l, f ≤ l ∧ l < f + N ∧ idx l = i
      · obtain ⟨l, g1, g2, g3⟩ := hx
        obtain ⟨rec0, obs0, ho⟩ := hc.objs (idx l)
        rw [← g3]; exact ⟨_, _, hrecd l g1 g2 rec0 obs0 ho⟩
      · rw [hothers i (fun l g1 g2 g3 => hx ⟨l, g1, g2, g3⟩)]
        exact hc.objs i
    · intro l g1 g2
      rw [elow] at g1
      simp only at g2 ⊢
      by_cases hlN : l < f + N
      · obtain ⟨rec0, obs0, ho0⟩ := hc.objs (idx l)
        have ho := hrecd l (by omega) hlN rec0 obs0 ho0
        generalize over (Q (l - s.scrolledCount)) obs0 = obs at ho
        rcases hsent l (by omega) hlN with ⟨x, hx1, hx2⟩ | ⟨old, x, hx1, hx2, hx3, _⟩
        · exact ⟨_, obs, x, ho, hx1, .inl (SameLine.symm hx2)⟩
        · refine ⟨_, obs, x, ho, hx3, .inr ⟨?_, same_of_blanked hx2⟩⟩
          rw [hbl', if_neg (fun h => h.2 hx2), hx1]
          exact fun h => by cases h
      · have hmb : l ≤ s.maxBufferedLine := by
          rw [e4] at g2
          by_cases h : m < f + N
          · rw [if_pos h] at g2; omega
          · rw [if_neg h] at g2; exact g2
        obtain ⟨rec, obs, cells, r1, r2, r3⟩ := hrecs l (by omega) hmb
        refine ⟨rec, obs, cells, ?_, by rw [hkeep l (by omega)]; exact r2, ?_⟩
        · rw [hothers (idx l) (fun l' h1 h2 h3 => by
            have := idx_inj (a := l') (b := l) (by omega) (by omega) h3
            omega)]
          exact r1
        · rw [hbl', if_neg (by omega)]; exact r3
    · intro l cells hl
      simp only
      rw [hw'] at hl
      by_cases hin' : f ≤ l ∧ l ≤ info.window.bottom + s.scrolledCount
      · rw [if_pos hin', Option.some.injEq] at hl
        subst hl
        by_cases hlN : l < f + N
        · rcases hsent l hin'.1 hlN with h1 | ⟨old, x, h1, h2, h3, h4⟩
          · exact .inl h1
          · exact .inr (.inr ⟨old, x, by rw [hbl', if_neg (fun h => h.2 h2)]; exact h1, h2, h3, h4⟩)
        · -- below everything that is not blank
          have hblank : AllBlank (Q (l - s.scrolledCount)) := hdb' _ (by omega) (by omega)
          have hns : w.sent l = none := hc.unsent l (by omega)
          refine .inr (.inl ⟨by rw [hkeep l (by omega)]; exact hns, hblank, by rw [e2]; omega, ?_⟩)
          rw [e4]; split <;> omega
      · rw [if_neg hin'] at hl
        have hout : l < f ∨ f + N ≤ l := by omega
        rcases hc.lines l cells hl with ⟨x, hx1, hx2⟩ | ⟨h1, h2, h3, h4⟩ | ⟨old, x, h1, h2, h3, h4⟩
        · exact .inl ⟨x, by rw [hkeep l hout]; exact hx1, hx2⟩
        · refine .inr (.inl ⟨by rw [hkeep l hout]; exact h1, h2, by rw [e2]; omega, ?_⟩)
          rw [e4]; split <;> omega
        · exact .inr (.inr ⟨old, x, by rw [hbl', if_neg (fun h => hin' h.1)]; exact h1, h2,
            by rw [hkeep l hout]; exact h3, h4⟩)
    · intro l old hl
      rw [hbl'] at hl
      by_cases hx : (f ≤ l ∧ l ≤ info.window.bottom + s.scrolledCount) ∧ ¬ Blanked (Q (l - s.scrolledCount))
      · rw [if_pos hx] at hl; cases hl
      · rw [if_neg hx] at hl
        rw [w4]
        by_cases hy : m ≤ l ∧ l < m + n
        · rw [if_pos hy]
          refine ⟨_, rfl, .inr (same_of_blanked ?_)⟩
          exact Decidable.byContradiction fun h => hx ⟨by omega, h⟩
        · rw [if_neg hy]; exact hc.olds l old hl
    · intro l hl
      rw [hw'] at hl
      by_cases hin' : f ≤ l ∧ l ≤ info.window.bottom + s.scrolledCount
      · rw [if_pos hin'] at hl; cases hl
      · rw [if_neg hin'] at hl
        rw [hkeep l (by omega)]
        exact hc.only l hl
    · intro l hl
      simp only at hl
      obtain ⟨g1, g2⟩ := hmax l hl
      have hns := hc.unsent l g1
      rw [w4]
      by_cases hx : m ≤ l ∧ l < m + n
      · have := g2 (by omega); omega
      · rw [if_neg hx]; exact hns
    · intro l h1 h2
      simp only at h2
      rw [w1] at h1
      rw [e2] at h2
      by_cases hls : l < f
      · rw [hkeep l (by omega)]; exact hc.noGap l h1 (by omega)
      · exact hsent' l (by omega) (by omega)
    · rw [w1, elow]; omega
    · rw [w1, hb']; exact hc.start
    · rw [elow]
      simp only
      rw [e2]
      cases shown with
      | true =>
        have := hcl' rfl
        rw [if_pos rfl] at w2
        omega
      | false => rw [if_neg (by decide)] at w2; omega
    · simp only; rw [ht', e2]
    · simp only; rw [e6]; exact hc.counter
    · intro l g1 g2
      rw [elow] at g1
      simp only at g2 ⊢
      by_cases hlN : l < f + N
      · obtain ⟨rec0, obs0, ho0⟩ := hc.objs (idx l)
        refine ⟨_, _, hrecd l (by omega) hlN rec0 obs0 ho0, ?_, ?_⟩
        · intro _; rw [hw', if_pos (by omega)]
        · intro hbl
          rw [hbl'] at hbl
          by_cases hx : (f ≤ l ∧ l ≤ info.window.bottom + s.scrolledCount) ∧
              ¬ Blanked (Q (l - s.scrolledCount))
          · rw [if_pos hx] at hbl; exact absurd rfl hbl
          · rw [if_neg hx] at hbl
            have hB : Blanked (Q (l - s.scrolledCount)) :=
              Decidable.byContradiction fun h => hx ⟨by omega, h⟩
            have hml' : l ≤ s.maxBufferedLine := by
              cases hb' : t.blanked l with
              | none => exact absurd hb' hbl
              | some old =>
                obtain ⟨x, hx', _⟩ := hc.olds l old hb'
                by_cases hg : s.maxBufferedLine < l
                · rw [hc.unsent l hg] at hx'; cases hx'
                · omega
            obtain ⟨rec1, obs1, k1, _, k3⟩ := hkept l (by omega) hml'
            have heq : obs0 = obs1 := funext fun col => by rw [← ho0.obs, k1.obs]
            refine ⟨hB, ?_⟩
            intro col c hcol
            unfold over at hcol
            split at hcol
            · exact hB.2 c (List.mem_of_getElem? hcol)
            · rw [heq] at hcol; exact (k3 hbl).2 col c hcol
      · have hmb : l ≤ s.maxBufferedLine := by
          rw [e4] at g2
          by_cases h : m < f + N
          · rw [if_pos h] at g2; omega
          · rw [if_neg h] at g2; exact g2
        obtain ⟨rec, obs, r1, r2, r3⟩ := hkept l (by omega) hmb
        refine ⟨rec, obs, ?_, ?_, ?_⟩
        · rw [hothers (idx l) (fun l' h1 h2 h3 => by
            have := idx_inj (a := l') (b := l) (by omega) (by omega) h3
            omega)]
          exact r1
        · rw [hbl', if_neg (by omega), hw', if_neg (by omega)]; exact r2
        · rw [hbl', if_neg (by omega)]; exact r3
  · exact ⟨e7, e6⟩
  · exact e2
  · simp only; rw [e2]
  · exact e5
  · refine ⟨m, n, shown, cl, cc, rfl, hlo, ?_⟩
    intro hn0
    by_cases hms : m = f
    · exact .inr hms
    · have := (hsame (m - 1) (by omega) (by omega)).1
      exact .inl (by omega)
  · intro cfg h1 h2 h3
    apply emitted_ok cfg shown cc cl _ m n w (by omega) (by omega) (by omega) ?_ h3
    intro hsn
    have := hcl' hsn
    refine ⟨by omega, by omega, by omega, by omega⟩
  · intro hfull l g1 g2
    exact hsent' l g1 (by omega)
  · simp only; rw [hst]
  · intro l rest hl
    obtain ⟨g1, g2⟩ := emitted_first hl
    subst g1
    rcases hs.why (by omega) rfl with h | h
    · exact .inl (hc.unsent l h)
    · by_cases hml' : s.maxBufferedLine < l
      · exact .inl (hc.unsent l hml')
      · obtain ⟨rec, obs, r1, r2, r3⟩ := hkept l (by omega) (by omega)
        have hnu := h rec obs r1
        refine .inr ⟨?_, ?_⟩
        · intro hbl hw
          rw [r2 hbl, Option.some.injEq] at hw
          exact hnu (by rw [hw]; exact unchanged_refl (hne l (by omega) (by omega)))
        · intro hbl hB
          obtain ⟨q1, q2⟩ := r3 hbl
          exact hnu (unchanged_blanked q1 hB q2)
  · constructor
    · rfl
    · simp only; rw [e5]; exact hr.window
    · simp only; rw [e3]; have := hr.cursor; omega
    · simp only; rw [e3]; exact hbelow'
    · simp only
      rw [e2, e3]
      intro l g1 g2
      obtain ⟨rec0, obs0, ho⟩ := hc.objs (idx l)
      refine ⟨?_, _, hrecd l (by omega) (by omega) rec0 obs0 ho⟩
      rw [e4]
      by_cases hlm : l < m
      · have := (hsame l (by omega) hlm).1
        split <;> omega
      · rw [if_pos (by omega)]; omega
  · rw [hsh]
    refine ⟨_, emitted_congr (fun h => ⟨(hcl' h).2.1, (hcl' h).1⟩), ?_, ?_⟩
    · intro call hmem
      obtain ⟨i, _, h2⟩ := sends_mem hmem
      exact ⟨_, _, _, h2⟩
    · intro hrest
      have hn0 : n = 0 := by
        apply Decidable.byContradiction
        intro hn0
        have hdd := hrestD hrest
        have hff := hrestF hrest
        obtain ⟨g1, obs, g2⟩ := hrest.same m (by omega) (by omega)
        rcases hs.why (by omega) rfl with h | h
        · exact absurd h (by simp only; omega)
        · exact h _ obs g2 (unchanged_refl (hne m (by omega) (by omega)))
      rw [hn0]; rfl

end Winpty.Scraper
