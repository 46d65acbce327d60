import Verif.Lemmas.CreateDesktop
import Verif.Props.Open

/-!
# C77: the background desktop of older systems

`handleCreateDesktop env connects began ts` is the agent that only makes a desktop: `env` are the
answers of the system about the desktop, `connects` says whether the control pipe can be opened, `ts`
are the answers for the turns of its event loop.  `winptyOpen` is the library's side.
-/
namespace Winpty.CreateDesktop

open Winpty.Spec.CreateDesktop Winpty.Spec.Open
open Winpty.Open (Background DesktopEnv)
open Winpty.Spec (message wire ValidField)
open Winpty.Spec.Client (Good dataOf)

theorem makes_new {env : DesktopEnv} {o st d : Int} {sn dn : List Nat} (h : Makes env o st d sn dn) :
    Background.new env ⟨[], []⟩ = .ok ⟨some o, some st, some d, sn ++ 92 :: dn⟩
      ⟨[], [.opened .station st, .setStation st true, .opened .desktop d]⟩ := by
  unfold Background.new Open.desktopName
  simp only [h.original, h.station, h.set, h.desktop, h.stationName, h.desktopName, Open.ask, Open.R.bind,
    Open.R.onThrow, Open.W.add]
  rfl

theorem refuses_new {env : DesktopEnv} (ios : List Client.Io) (h : Refuses env) :
    ∃ m w, Background.new env ⟨ios, []⟩ = .throw (.winpty m) w ∧ openAfter [] w.log = some [] ∧ w.ios = ios ∧
      startedIn w.log = [] ∧
      ∀ h0, env.restore = true → (∀ x, env.original = .ok x → x = h0) → stationAfter h0 w.log = h0 := by
  unfold Background.new Open.desktopName
  cases h1 : env.original with
  | error e =>
    refine ⟨_, _, rfl, rfl, rfl, rfl, ?_⟩
    intro h0 _ _; rfl
  | ok o =>
    cases h2 : env.station with
    | error e =>
      refine ⟨_, _, rfl, rfl, rfl, rfl, ?_⟩
      intro h0 hr hx
      have := hx o rfl
      subst this
      simp [Background.dispose, Open.W.add, stationAfter, hr, Except.isOk, Except.toBool]
    | ok st =>
      cases h3 : env.set with
      | error e =>
        refine ⟨_, _, rfl, ?_, rfl, ?_, ?_⟩
        · simp [Background.dispose, Open.W.add, openAfter]
        · simp [Background.dispose, Open.W.add, startedIn]
        · intro h0 hr hx
          have := hx o rfl
          subst this
          simp [Background.dispose, Open.W.add, stationAfter, hr, Except.isOk, Except.toBool]
      | ok u =>
        cases h4 : env.desktop with
        | error e =>
          refine ⟨_, _, rfl, ?_, rfl, ?_, ?_⟩
          · simp [Background.dispose, Open.W.add, openAfter]
          · simp [Background.dispose, Open.W.add, startedIn]
          · intro h0 hr hx
            have := hx o rfl
            subst this
            simp [Background.dispose, Open.W.add, stationAfter, hr, Except.isOk, Except.toBool]
        | ok d =>
          cases h5 : env.stationName with
          | error e =>
            refine ⟨_, _, rfl, ?_, rfl, ?_, ?_⟩
            · simp [Background.dispose, Open.W.add, openAfter]
            · simp [Background.dispose, Open.W.add, startedIn]
            · intro h0 hr hx
              have := hx o rfl
              subst this
              simp [Background.dispose, Open.W.add, stationAfter, hr, Except.isOk, Except.toBool]
          | ok sn =>
            cases h6 : env.desktopName with
            | error e =>
              refine ⟨_, _, rfl, ?_, rfl, ?_, ?_⟩
              · simp [Background.dispose, Open.W.add, openAfter]
              · simp [Background.dispose, Open.W.add, startedIn]
              · intro h0 hr hx
                have := hx o rfl
                subst this
                simp [Background.dispose, Open.W.add, stationAfter, hr, Except.isOk, Except.toBool]
            | ok dn =>
              exfalso
              unfold Refuses at h
              simp [h1, h2, h3, h4, h5, h6] at h

end Winpty.CreateDesktop

namespace Winpty.Props

open Winpty.CreateDesktop Winpty.Spec.CreateDesktop
open Winpty.Open Winpty.Spec.Open
open Winpty.Spec (message wire ValidField)
open Winpty.Spec.Client (Good)
open Winpty.Startup (Config lit params)
open Winpty.EventLoop (Pause)
open Winpty.NamedPipe (Ans bytesToSend)
open Winpty.Agent (PipeTick)

/-! ## The agent's side -/

/-- What is sent to the library is the name of the desktop that was made, `station\\desktop`: what has
gone out is the beginning of that message, and all of it once nothing is left to send. -/
theorem C77_name_sent (env : DesktopEnv) (connects : Bool) (began : Nat) (ts : List (PipeTick × Nat))
    (original station desktop : Int) (sn dn : List Nat) (hm : Makes env original station desktop sn dn)
    (sizeMax : Nat) (hv : ValidField sizeMax (.wstring (sn ++ 92 :: dn))) :
    (∀ w s pauses, handleCreateDesktop env connects began ts = .running w s pauses →
      s.pipe.os.wire <+: message [.wstring (sn ++ 92 :: dn)] ∧
      (bytesToSend s.pipe.pipe = some 0 → s.pipe.os.wire = message [.wstring (sn ++ 92 :: dn)])) ∧
    (∀ w p, handleCreateDesktop env connects began ts = .exited w (some p) →
      p.os.wire <+: message [.wstring (sn ++ 92 :: dn)]) := by
  unfold handleCreateDesktop
  rw [makes_new hm]
  simp only
  cases h1 : CreateDesktop.start connects (sn ++ 92 :: dn) with
  | none => simp
  | some s0 =>
    obtain ⟨_, k1, _⟩ := start_eq hv h1
    simp only
    cases h2 : CreateDesktop.loop began s0 ts with
    | none => simp
    | some x =>
      obtain ⟨s1, ps⟩ := x
      obtain ⟨g1, _⟩ := loop_ok ts k1 h2
      have hpre : s1.pipe.os.wire <+: message [.wstring (sn ++ 92 :: dn)] := by
        obtain ⟨e1, e2⟩ := g1.inv.outClosed
        rw [← e1]
        exact e2.trans (List.prefix_append _ _)
      constructor
      · intro w s pauses h
        simp only at h
        split at h
        · cases h
        · rename_i hx
          cases h
          refine ⟨hpre, fun hz => g1.inv.nothing_left ?_ hz⟩
          have := g1.exits
          cases ho : s1.pipe.pipe.opened with
          | true => rfl
          | false => rw [ho] at this; exact absurd this hx
      · intro w p h
        simp only at h
        split at h
        · cases h; exact hpre
        · cases h

/-- The desktop and its window station exist as long as the agent runs, which it does as long as its
end of the control pipe is open; it does not poll, but waits without a time limit.  When it ends, the
pipe is closed, desktop and station are closed, and the process is back in its own station. -/
theorem C77_kept (env : DesktopEnv) (connects : Bool) (began : Nat) (ts : List (PipeTick × Nat))
    (original station desktop : Int) (sn dn : List Nat) (hm : Makes env original station desktop sn dn)
    (sizeMax : Nat) (hv : ValidField sizeMax (.wstring (sn ++ 92 :: dn))) :
    (∀ w s pauses, handleCreateDesktop env connects began ts = .running w s pauses →
      s.pipe.pipe.opened = true ∧ openAfter [] w.log = some [(.desktop, desktop), (.station, station)] ∧
      stationAfter original w.log = station ∧
      ∀ p ∈ pauses, p = .again ∨ ∃ handles, p = .wait handles 0xFFFFFFFF) ∧
    (∀ w p, handleCreateDesktop env connects began ts = .exited w p →
      (∃ q, p = some q ∧ q.pipe.opened = false) ∧ openAfter [] w.log = some [] ∧
      (env.restore = true → stationAfter original w.log = original)) := by
  unfold handleCreateDesktop
  rw [makes_new hm]
  simp only
  cases h1 : CreateDesktop.start connects (sn ++ 92 :: dn) with
  | none => simp
  | some s0 =>
    obtain ⟨_, k1, _⟩ := start_eq hv h1
    simp only
    cases h2 : CreateDesktop.loop began s0 ts with
    | none => simp
    | some x =>
      obtain ⟨s1, ps⟩ := x
      obtain ⟨g1, g2, _⟩ := loop_ok ts k1 h2
      constructor
      · intro w s pauses h
        simp only at h
        split at h
        · cases h
        · rename_i hx
          cases h
          refine ⟨?_, by simp [openAfter], by simp [stationAfter], g2⟩
          have := g1.exits
          cases ho : s1.pipe.pipe.opened with
          | true => rfl
          | false => rw [ho] at this; exact absurd this hx
      · intro w p h
        simp only at h
        split at h
        · rename_i hx
          cases h
          refine ⟨⟨_, rfl, ?_⟩, ?_, ?_⟩
          · have := g1.exits
            rw [hx] at this
            simpa using this.symm
          · simp [Background.dispose, W.add, openAfter]
          · intro hr
            simp [Background.dispose, W.add, stationAfter, hr]
        · cases h

/-- When the library closes its end, the read in progress fails, and with the next turn the agent is
gone. -/
theorem C77_ends (env : DesktopEnv) (connects : Bool) (began : Nat) (ts us : List (PipeTick × Nat))
    (original station desktop : Int) (sn dn : List Nat) (hm : Makes env original station desktop sn dn)
    (sizeMax : Nat) (hv : ValidField sizeMax (.wstring (sn ++ 92 :: dn))) (w : W) (s : CreateDesktop.State)
    (pauses : List Pause) (h : handleCreateDesktop env connects began ts = .running w s pauses)
    (hsent : sent ts < 65536) (t : PipeTick) (now : Nat) (more : List Ans) (ht : t.reads = .error :: more)
    (hf : Spec.Pipe.FullWrites t.writes) :
    ∃ w' p, handleCreateDesktop env connects began (ts ++ (t, now) :: us) = .exited w' p := by
  unfold handleCreateDesktop at h ⊢
  rw [makes_new hm] at h ⊢
  simp only at h ⊢
  cases h1 : CreateDesktop.start connects (sn ++ 92 :: dn) with
  | none => rw [h1] at h; cases h
  | some s0 =>
    obtain ⟨_, k1, k2, _⟩ := start_eq hv h1
    rw [h1] at h
    simp only at h ⊢
    cases h2 : CreateDesktop.loop began s0 ts with
    | none => rw [h2] at h; cases h
    | some x =>
      obtain ⟨s1, ps⟩ := x
      rw [h2] at h
      simp only at h
      obtain ⟨g1, g2, g3⟩ := loop_ok ts k1 h2
      rw [k2] at g3
      split at h
      · cases h
      rename_i hx
      cases h
      have hx' : s.exiting = false := by simpa using hx
      have hop : s.pipe.pipe.opened = true := by
        have := g1.exits
        rw [hx'] at this
        simpa using this.symm
      rw [loop_append ts _ h2]
      have hturn : ∃ s2, CreateDesktop.turn s t began now = some (s2, .again) ∧ s2.exiting = true := by
        have h0 : NamedPipe.Inv true true (NamedPipe.osTakes s.pipe t.takes) (message [.wstring (sn ++ 92 :: dn)])
            [] 65536 := by
          have := NamedPipe.step_inv g1.inv (.osTakes t.takes) (NamedPipe.osTakes s.pipe t.takes) []
            (by intro n h; cases h) rfl
          simpa [NamedPipe.wrote, Spec.Pipe.consumes] using this
        have ho : (NamedPipe.osTakes s.pipe t.takes).pipe.opened = true := by
          rw [NamedPipe.osTakes_pipe]; exact hop
        have hc : (NamedPipe.osTakes s.pipe t.takes).pipe.connecting = false := by
          rw [NamedPipe.osTakes_pipe]; exact g1.connected
        have hl : (NamedPipe.osTakes s.pipe t.takes).pipe.inQueue.length <
            (NamedPipe.osTakes s.pipe t.takes).pipe.readBufferSize := by
          rw [NamedPipe.osTakes_pipe, g1.size]
          have := g1.inv.inp.stream
          simp only [List.nil_append] at this
          rw [this]
          simp only [List.length_nil] at g3
          omega
        have htot : ∃ x, EventLoop.serviced s.pipe t = some x := by
          unfold EventLoop.serviced NamedPipe.serviceIo
          rw [if_neg (by simp [NamedPipe.Pipe.isClosed, ho]), if_neg (by simp [hc])]
          exact NamedPipe.serviceWorkers_total h0 ho _ _ _ _ _ hf
        obtain ⟨⟨p, did, ev⟩, hs⟩ := htot
        have hs' := hs
        unfold EventLoop.serviced at hs'
        rw [ht] at hs'
        obtain ⟨q1, rfl⟩ := NamedPipe.serviceIo_read_error h0 ho hc hl _ _ _ _ _ _ _ hs'
        refine ⟨⟨p, true⟩, ?_, rfl⟩
        unfold CreateDesktop.turn
        rw [hs]
        simp [CreateDesktop.onPipeIo, NamedPipe.Pipe.isClosed, q1]
      obtain ⟨s2, h3, h4⟩ := hturn
      have hstop : CreateDesktop.loop began s2 us = some (s2, []) := by
        cases us with
        | nil => rfl
        | cons u us => obtain ⟨u, v⟩ := u; rw [CreateDesktop.loop, if_pos h4]
      rw [CreateDesktop.loop, if_neg hx, h3]
      simp only [hstop, Option.map_some, h4, if_true]
      exact ⟨_, _, rfl⟩

/-- If the system refuses the desktop, the agent ends at once, without having opened the control pipe,
and leaves nothing behind. -/
theorem C77_refused (env : DesktopEnv) (connects : Bool) (began : Nat) (ts : List (PipeTick × Nat))
    (hr : Refuses env) :
    ∃ w, handleCreateDesktop env connects began ts = .exited w none ∧ openAfter [] w.log = some [] ∧
      ∀ h0, env.restore = true → (∀ x, env.original = .ok x → x = h0) → stationAfter h0 w.log = h0 := by
  obtain ⟨m, w, h1, h2, _, _, h3⟩ := refuses_new [] hr
  unfold handleCreateDesktop
  rw [h1]
  exact ⟨w, rfl, h2, h3⟩

/-- The agent is not aborted, as long as the other end sends less than 64 KiB: there is always
something to wait for.  (The library sends nothing at all.) -/
theorem C77_no_abort_partial (env : DesktopEnv) (began : Nat) (ts : List (PipeTick × Nat))
    (sizeMax : Nat) (hv : ∀ sn dn, env.stationName = .ok sn → env.desktopName = .ok dn →
      ValidField sizeMax (.wstring (sn ++ 92 :: dn)))
    (hs : Sound ts) (hsent : sent ts < 65536) : handleCreateDesktop env true began ts ≠ .aborted := by
  by_cases hr : Refuses env
  · obtain ⟨w, h, _⟩ := C77_refused env true began ts hr
    rw [h]; simp
  · have hm : ∃ o st d sn dn, Makes env o st d sn dn := by
      unfold Refuses at hr
      cases h1 : env.original with
      | error e => exact absurd (.inl ⟨e, h1⟩) hr
      | ok o =>
        cases h2 : env.station with
        | error e => exact absurd (.inr (.inl ⟨e, h2⟩)) hr
        | ok st =>
          cases h3 : env.set with
          | error e => exact absurd (.inr (.inr (.inl ⟨e, h3⟩))) hr
          | ok u =>
            cases h4 : env.desktop with
            | error e => exact absurd (.inr (.inr (.inr (.inl ⟨e, h4⟩)))) hr
            | ok d =>
              cases h5 : env.stationName with
              | error e => exact absurd (.inr (.inr (.inr (.inr (.inl ⟨e, h5⟩))))) hr
              | ok sn =>
                cases h6 : env.desktopName with
                | error e => exact absurd (.inr (.inr (.inr (.inr (.inr ⟨e, h6⟩))))) hr
                | ok dn => exact ⟨o, st, d, sn, dn, h1, h2, h3, h4, h5, h6⟩
    obtain ⟨o, st, d, sn, dn, hm⟩ := hm
    have hvn := hv sn dn hm.stationName hm.desktopName
    unfold handleCreateDesktop
    rw [makes_new hm]
    obtain ⟨s0, h1⟩ := starts (sn ++ 92 :: dn) hvn
    obtain ⟨_, k1, k2, _⟩ := start_eq hvn h1
    simp only [h1]
    obtain ⟨⟨s1, ps⟩, h2⟩ := loop_total (began := began) ts k1 hs (by rw [k2]; simpa using hsent)
    simp only [h2]
    split <;> simp

/-- Two turns: the message goes out and 64 KiB arrive; then nothing happens. -/
private def flood (data : List Nat) : List (PipeTick × Nat) :=
  [(⟨0, .connected, [.done 0 data], [.done 65536 []], 0⟩, 0), (⟨0, .connected, [], [], 0⟩, 0)]

/-- A peer that sends 64 KiB aborts the agent: nothing takes the data out of the read buffer, so there
is nothing left to wait for, and the event loop's assertion fails. -/
theorem C77_flooded_defect : ∃ env ts, Makes env 1 2 3 [83] [68] ∧ Sound ts ∧ sent ts = 65536 ∧
    handleCreateDesktop env true 0 ts = .aborted := by
  have hm : Makes ⟨.ok 1, .ok 2, .ok (), .ok 3, .ok [83], .ok [68], true⟩ 1 2 3 [83] [68] :=
    ⟨rfl, rfl, rfl, rfl, rfl, rfl⟩
  obtain ⟨data, hd⟩ : ∃ data : List Nat, data.length = 65536 := ⟨List.replicate 65536 0, List.length_replicate⟩
  refine ⟨_, flood data, hm, ?_, ?_, ?_⟩
  · simp [Sound, flood, Spec.Pipe.FullWrites]
  · simp [sent, flood, Spec.CreateDesktop.dataOf, hd]
  · unfold handleCreateDesktop
    rw [makes_new hm]
    have hs : CreateDesktop.start true [83, 92, 68] = some ⟨⟨⟨true, false, true, true, 65536, [],
      [23, 0, 0, 0, 0, 0, 0, 0, 2, 3, 0, 0, 0, 0, 0, 0, 0, 83, 0, 92, 0, 68, 0], some ⟨false, 0, []⟩, some ⟨false, 0, []⟩⟩,
      ⟨[], [], 0, [], []⟩⟩, false⟩ := by rfl
    simp only [List.cons_append, List.nil_append, hs]
    have hl : CreateDesktop.loop 0 ⟨⟨⟨true, false, true, true, 65536, [],
      [23, 0, 0, 0, 0, 0, 0, 0, 2, 3, 0, 0, 0, 0, 0, 0, 0, 83, 0, 92, 0, 68, 0], some ⟨false, 0, []⟩, some ⟨false, 0, []⟩⟩,
      ⟨[], [], 0, [], []⟩⟩, false⟩ (flood data) = none := by
      simp [flood, CreateDesktop.loop, CreateDesktop.turn, EventLoop.serviced, NamedPipe.serviceIo, NamedPipe.osTakes,
        NamedPipe.Pipe.isClosed, NamedPipe.serviceWorkers, NamedPipe.service, NamedPipe.Pipe.worker,
        NamedPipe.serviceLoop, NamedPipe.iterate, NamedPipe.shouldIssueIo, NamedPipe.Pipe.isConnecting,
        NamedPipe.finish, NamedPipe.completeIo, NamedPipe.transfer, NamedPipe.noteCall, NamedPipe.Pipe.setWorker,
        NamedPipe.ioSize, NamedPipe.overwrite, hd, CreateDesktop.onPipeIo, NamedPipe.hasWaitEvent, EventLoop.pause,
        EventLoop.timeout]
    rw [hl]

/-- A run: the message goes out in two writes, and the library closes its end. -/
private def sampleEnvD : DesktopEnv := ⟨.ok 1, .ok 2, .ok (), .ok 3, .ok [83], .ok [68], true⟩

private def sampleTurns : List (PipeTick × Nat) :=
  [(⟨0, .connected, [], [], 0⟩, 5), (⟨9, .connected, [], [.done 65536 []], 0⟩, 6), (⟨0, .connected, [], [], 0⟩, 7)]

example : Makes sampleEnvD 1 2 3 [83] [68] ∧ ValidField 0xFFFFFFFF (.wstring [83, 92, 68]) ∧ Sound sampleTurns ∧
    sent sampleTurns = 0 :=
  ⟨⟨rfl, rfl, rfl, rfl, rfl, rfl⟩, ⟨by simp, by simp, by simp⟩, by simp [Sound, sampleTurns, Spec.Pipe.FullWrites],
    rfl⟩

/-- What is on the wire, how the turns end, and whether the agent runs. -/
private def sampleView : CreateDesktop.Outcome → Bool × List Nat × List Pause
  | .running _ s p => (true, s.pipe.os.wire, p)
  | .exited _ (some p) => (false, p.os.wire, [])
  | _ => (false, [], [])

example : sampleView (handleCreateDesktop sampleEnvD true 0 sampleTurns) =
    (true, [23, 0, 0, 0, 0, 0, 0, 0, 2, 3, 0, 0, 0, 0, 0, 0, 0, 83, 0, 92, 0, 68, 0],
      [.wait [(.control, .input), (.control, .output)] 0xFFFFFFFF, .again, .wait [(.control, .input)] 0xFFFFFFFF]) := by
  decide +kernel

example : (sampleView (handleCreateDesktop sampleEnvD true 0
    (sampleTurns ++ [(⟨0, .connected, [.error], [], 0⟩, 8)]))).1 = false := by
  decide +kernel

example : Refuses { sampleEnvD with desktop := .error 5 } := .inr (.inr (.inr (.inl ⟨5, rfl⟩)))

/-! ## The library's side -/

/-- A background desktop is wanted: an older system, a hidden console, and no debug flags. -/
def WantsDesktop (env : Open.Env) : Prop :=
  (∀ f, env.debugFlag f = false) ∧ env.windows7 = false ∧ env.showConsole = false

theorem wantsDesktop {env : Open.Env} (h : WantsDesktop env) (b : Bool) :
    shouldCreateBackgroundDesktop env b = (true, b) := by
  unfold shouldCreateBackgroundDesktop
  simp [h.1, h.2.1, h.2.2]

/-- The packet with the names of the data pipes is read. -/
theorem readNames_feed (c : Client.Cfg) (err : Bool) (w1 : W) (s : Session)
    (conin conout conerr : List Nat) (header body rest : List Client.Io) (hios : w1.ios = header ++ body ++ rest)
    (hgood : ∀ i ∈ header ++ body, Good i ∧ Spec.Client.dataOf i ≠ [])
    (h8 : (header.flatMap Spec.Client.dataOf).length = 8)
    (hm : (header ++ body).flatMap Spec.Client.dataOf = message ([.wstring conin, .wstring conout] ++
        if err then [.wstring conerr] else []))
    (hv : ∀ n ∈ [conin, conout, conerr], ValidField c.buffer.sizeMax (.wstring n))
    (hmax : ((header ++ body).flatMap Spec.Client.dataOf).length ≤ c.buffer.sizeMax) (h64 : c.buffer.sizeMax < 2 ^ 64)
    (ha : ∀ n, c.buffer.canAlloc n = true) :
    ∃ es : List Client.Event, readNames c err w1 s = .ok { s with conin := conin, conout := conout, conerr := if err then conerr else [] }
      ⟨rest, w1.log ++ es.map (.io s.pipe)⟩ := by
  have hread : ∀ fs : List Buffer.Field, (header ++ body).flatMap Spec.Client.dataOf = message fs →
      ∃ es : List Client.Event, onPipe w1 s.pipe (Client.readPacket c) = .ok (wire fs) ⟨rest, w1.log ++ es.map (.io s.pipe)⟩ := by
    intro fs hfs
    obtain ⟨lg, hr⟩ := Client.readPacket_feed c header body rest ⟨w1.ios, [], []⟩ fs hgood hios h8 hfs
      (by rw [← hfs]; exact hmax) h64 (ha _)
    unfold onPipe
    rw [hr]
    exact ⟨_, rfl⟩
  have hvi := hv conin (by simp)
  have hvo := hv conout (by simp)
  have hve := hv conerr (by simp)
  cases err with
  | false =>
    simp only [Bool.false_eq_true, if_false, List.append_nil] at hm ⊢
    obtain ⟨es, q1⟩ := hread _ hm
    have hg := Buffer.getFields_wire c.buffer (wire [.wstring conin, .wstring conout]) 0
      [.wstring conin, .wstring conout] (by simp; exact ⟨hvi, hvo⟩) (fun _ _ _ => ha _) (Client.whole_at _)
    simp only [Buffer.getFields, Buffer.getField, List.map_cons, List.map_nil, Buffer.Field.ty] at hg
    obtain ⟨a, o1, g1, g2⟩ := Buffer.bind_ok hg
    obtain ⟨a', o1', g1', g1''⟩ := Buffer.bind_ok g1
    cases g1''
    obtain ⟨b, o2, g3, g4⟩ := Buffer.bind_ok g2
    cases g4
    obtain ⟨b', o2', g5, g6⟩ := Buffer.bind_ok g3
    obtain ⟨b'', o2'', g7, g8⟩ := Buffer.bind_ok g5
    cases g8
    cases g6
    refine ⟨es, ?_⟩
    simp only [readNames, q1, R.bind, decoded, g1', g7, Bool.false_eq_true, if_false, Buffer.assertEof]
    simp
  | true =>
    simp only [if_true, List.cons_append, List.nil_append] at hm ⊢
    obtain ⟨es, q1⟩ := hread _ hm
    have hg := Buffer.getFields_wire c.buffer (wire [.wstring conin, .wstring conout, .wstring conerr]) 0
      [.wstring conin, .wstring conout, .wstring conerr] (by simp; exact ⟨hvi, hvo, hve⟩) (fun _ _ _ => ha _)
      (Client.whole_at _)
    simp only [Buffer.getFields, Buffer.getField, List.map_cons, List.map_nil, Buffer.Field.ty] at hg
    obtain ⟨a, o1, g1, g2⟩ := Buffer.bind_ok hg
    obtain ⟨a', o1', g1', g1''⟩ := Buffer.bind_ok g1
    cases g1''
    obtain ⟨b, o2, g3, g4⟩ := Buffer.bind_ok g2
    cases g4
    obtain ⟨b', o2', g5, g6⟩ := Buffer.bind_ok g3
    obtain ⟨b'', o2'', g7, g8⟩ := Buffer.bind_ok g5
    cases g8
    obtain ⟨d, o3, g9, g10⟩ := Buffer.bind_ok g6
    cases g10
    obtain ⟨d', o3', g11, g12⟩ := Buffer.bind_ok g9
    obtain ⟨d'', o3'', g13, g14⟩ := Buffer.bind_ok g11
    cases g14
    cases g12
    refine ⟨es, ?_⟩
    simp only [readNames, q1, R.bind, decoded, g1', g7, g13, if_true, Buffer.assertEof]
    simp

/-- The name of the desktop is read. -/
theorem readDesktopName_feed (c : Client.Cfg) (w1 : W) (pipe : Int) (name : List Nat)
    (header body rest : List Client.Io) (hios : w1.ios = header ++ body ++ rest)
    (hgood : ∀ i ∈ header ++ body, Good i ∧ Spec.Client.dataOf i ≠ [])
    (h8 : (header.flatMap Spec.Client.dataOf).length = 8)
    (hm : (header ++ body).flatMap Spec.Client.dataOf = message [.wstring name])
    (hv : ValidField c.buffer.sizeMax (.wstring name))
    (hmax : ((header ++ body).flatMap Spec.Client.dataOf).length ≤ c.buffer.sizeMax) (h64 : c.buffer.sizeMax < 2 ^ 64)
    (ha : ∀ n, c.buffer.canAlloc n = true) :
    ∃ es : List Client.Event, readDesktopName c w1 pipe = .ok name ⟨rest, w1.log ++ es.map (.io pipe)⟩ := by
  obtain ⟨lg, hr⟩ := Client.readPacket_feed c header body rest ⟨w1.ios, [], []⟩ [.wstring name] hgood hios h8 hm
      (by rw [← hm]; exact hmax) h64 (ha _)
  have hg := Buffer.getFields_wire c.buffer (wire [.wstring name]) 0 [.wstring name] (by simpa using hv)
    (fun _ _ _ => ha _) (Client.whole_at _)
  simp only [Buffer.getFields, Buffer.getField, List.map_cons, List.map_nil, Buffer.Field.ty] at hg
  obtain ⟨a, o1, g1, g2⟩ := Buffer.bind_ok hg
  cases g2
  obtain ⟨a', o1', g1', g1''⟩ := Buffer.bind_ok g1
  cases g1''
  refine ⟨lg, ?_⟩
  unfold readDesktopName onPipe
  rw [hr]
  simp only [R.bind, decoded, g1', Buffer.assertEof]
  simp

theorem feed_started (p : Int) (es : List Client.Event) : startedIn (es.map (.io p)) = [] := startedIn_io p es

theorem sessionLog_started (env : AgentEnv) (args : AgentArgs) (ev p : Int) (pid : Nat) (hp ht : Int)
    (es : List Client.Event) : startedIn (sessionLog env args ev p pid hp ht es) = [(args, some pid)] := by
  simp [sessionLog, startedIn_append, startedIn, startedIn_io]

/-- On an older system, when the helper agent starts, connects and sends the name of its desktop, and the
agent itself starts, connects and sends the names of its pipes: the call returns the session, the agent was
started on the named desktop (and the helper on the caller's), and children will go to the caller's own
desktop. -/
theorem C77_opens (c : Client.Cfg) (we : Bool) (cfg : Config) (env : Open.Env) (hd : WantsDesktop env)
    (hproc : cfg.flags &&& 8 = 0)
    (ev1 pipe1 : Int) (pid1 : Nat) (proc1 thr1 : Int) (hstart1 : Starts env.desktopAgent ev1 pipe1 pid1 proc1 thr1)
    (name : List Nat) (conn1 : Client.Io) (header1 body1 : List Client.Io)
    (hconn1 : Connects conn1) (hgood1 : ∀ i ∈ header1 ++ body1, Good i ∧ Spec.Client.dataOf i ≠ [])
    (h81 : (header1.flatMap Spec.Client.dataOf).length = 8)
    (hm1 : (header1 ++ body1).flatMap Spec.Client.dataOf = message [.wstring name])
    (hmax1 : ((header1 ++ body1).flatMap Spec.Client.dataOf).length ≤ c.buffer.sizeMax) (hname : name ≠ [])
    (ev pipe : Int) (pid : Nat) (proc thr : Int) (hstart : Starts env.agent ev pipe pid proc thr)
    (ws dt : Int) (cst cdt : List Nat) (hws : env.currentStation = .ok ws) (hdt : env.currentDesktop = .ok dt)
    (hcst : env.currentStationName = .ok cst) (hcdt : env.currentDesktopName = .ok cdt)
    (conin conout conerr : List Nat) (conn : Client.Io) (header body rest : List Client.Io)
    (hconn : Connects conn) (hgood : ∀ i ∈ header ++ body, Good i ∧ Spec.Client.dataOf i ≠ [])
    (h8 : (header.flatMap Spec.Client.dataOf).length = 8)
    (hm : (header ++ body).flatMap Spec.Client.dataOf = message ([.wstring conin, .wstring conout] ++
        if cfg.flags &&& 1 ≠ 0 then [.wstring conerr] else []))
    (hv : ∀ n ∈ [name, conin, conout, conerr], ValidField c.buffer.sizeMax (.wstring n))
    (hmax : ((header ++ body).flatMap Spec.Client.dataOf).length ≤ c.buffer.sizeMax) (h64 : c.buffer.sizeMax < 2 ^ 64)
    (ha : ∀ n, c.buffer.canAlloc n = true) :
    ∃ w, winptyOpen c we cfg env ⟨conn1 :: (header1 ++ body1 ++ conn :: (header ++ body ++ rest)), []⟩ =
      .returned (some ⟨proc, pipe, ev, cfg.timeoutMs, cst ++ 92 :: cdt, conin, conout,
        if cfg.flags &&& 1 ≠ 0 then conerr else []⟩) none w ∧ w.ios = rest ∧
      (startedIn w.log).map (fun x => (x.1.desktop, x.2)) = [(none, some pid1), (some (name ++ [0]), some pid)] := by
  obtain ⟨w1, k1, k2⟩ := session_opens (cfg := cfg) (shouldSpecifyHideFlag env)
    ⟨conn1 :: (header1 ++ body1 ++ conn :: (header ++ body ++ rest)), []⟩ []
    (lit "--create-desktop") 8 hstart1.event hstart1.descriptor hstart1.pipe hstart1.exe hstart1.process
    hstart1.client rfl hconn1
  obtain ⟨_, _, pid1', hp1, ht1, es1, _, _, hp1e, _, _, _, k3⟩ := session_shape k1
  rw [hstart1.process] at hp1e
  cases hp1e
  obtain ⟨es2, k4⟩ := readDesktopName_feed c w1 pipe1 name header1 body1 _ k2 hgood1 h81 hm1 (hv name (by simp))
    hmax1 h64 ha
  have hset : setupBackgroundDesktop c cfg env
      ⟨conn1 :: (header1 ++ body1 ++ conn :: (header ++ body ++ rest)), []⟩ =
      .ok (some (.indirect ⟨proc1, pipe1, ev1, cfg.timeoutMs, [], [], [], []⟩ name))
        ⟨conn :: (header ++ body ++ rest), w1.log ++ es2.map (.io pipe1)⟩ := by
    unfold setupBackgroundDesktop
    rw [wantsDesktop hd]
    simp only [hproc, decide_true, if_true, k1, R.bind, k4, R.onThrow, hname, if_false]
  obtain ⟨w2, q1, q2⟩ := session_opens (cfg := cfg) (shouldSpecifyHideFlag env)
    ⟨conn :: (header ++ body ++ rest), w1.log ++ es2.map (.io pipe1)⟩ name
    (params cfg) 16 hstart.event hstart.descriptor hstart.pipe hstart.exe hstart.process
    hstart.client rfl hconn
  obtain ⟨_, _, pid', hp, ht, es3, _, _, hpe, _, _, _, q3⟩ := session_shape q1
  rw [hstart.process] at hpe
  cases hpe
  have hdi := dispose_grows env.background.restore
    (some (.indirect ⟨proc1, pipe1, ev1, cfg.timeoutMs, [], [], [], []⟩ name)) w2
  have hdis := dispose_started env.background.restore
    (some (.indirect ⟨proc1, pipe1, ev1, cfg.timeoutMs, [], [], [], []⟩ name)) w2
  generalize hw3 : AgentDesktop.dispose env.background.restore
    (some (.indirect ⟨proc1, pipe1, ev1, cfg.timeoutMs, [], [], [], []⟩ name)) w2 = w3 at hdi hdis
  obtain ⟨_, _, d2⟩ := hdi
  obtain ⟨es4, r1⟩ := readNames_feed c (cfg.flags &&& 1 ≠ 0) (w3.add [.currentDesktop (cst ++ 92 :: cdt)])
    { (⟨proc, pipe, ev, cfg.timeoutMs, [], [], [], []⟩ : Session) with spawnDesktopName := cst ++ 92 :: cdt }
    conin conout conerr header body rest (by simp only [W.add, d2, q2]) hgood h8 (by simpa using hm)
    (fun n hn => hv n (by simp only [List.mem_cons] at hn ⊢; exact .inr hn)) hmax h64 ha
  have hcur : getCurrentDesktopName env w3 = .ok (cst ++ 92 :: cdt) (w3.add [.currentDesktop (cst ++ 92 :: cdt)]) := by
    simp only [getCurrentDesktopName, desktopName, ask, hws, hdt, hcst, hcdt, R.bind]
  refine ⟨⟨rest, (w3.add [.currentDesktop (cst ++ 92 :: cdt)]).log ++ es4.map (.io pipe)⟩, ?_, rfl, ?_⟩
  · unfold winptyOpen openBody
    simp only [hset, R.bind, AgentDesktop.name, q1, R.onThrow, hw3, finishOpen, hname, if_false, hcur]
    rw [r1]
    simp
  · simp only [startedIn_append, feed_started, W.add, startedIn, List.append_nil]
    rw [hdis, q3]
    simp only [startedIn_append, feed_started, k3, sessionLog_started, List.append_nil, startedIn,
      List.nil_append, List.map_append, List.map_cons, List.map_nil, agentArgs, hname, if_false, if_true,
      List.singleton_append]

/-- The call is to make the desktop in its own process and the system refuses: the call goes on on the
caller's own desktop. -/
theorem C77_fallback_partial (c : Client.Cfg) (we : Bool) (cfg : Config) (env : Open.Env) (hd : WantsDesktop env)
    (hproc : cfg.flags &&& 8 ≠ 0) (href : Refuses env.background)
    (ev pipe : Int) (pid : Nat) (proc thr : Int) (hstart : Starts env.agent ev pipe pid proc thr)
    (conin conout conerr : List Nat) (conn : Client.Io) (header body rest : List Client.Io)
    (hconn : Connects conn) (hgood : ∀ i ∈ header ++ body, Good i ∧ Spec.Client.dataOf i ≠ [])
    (h8 : (header.flatMap Spec.Client.dataOf).length = 8)
    (hm : (header ++ body).flatMap Spec.Client.dataOf = message ([.wstring conin, .wstring conout] ++
        if cfg.flags &&& 1 ≠ 0 then [.wstring conerr] else []))
    (hv : ∀ n ∈ [conin, conout, conerr], ValidField c.buffer.sizeMax (.wstring n))
    (hmax : ((header ++ body).flatMap Spec.Client.dataOf).length ≤ c.buffer.sizeMax) (h64 : c.buffer.sizeMax < 2 ^ 64)
    (ha : ∀ n, c.buffer.canAlloc n = true) :
    ∃ w, winptyOpen c we cfg env ⟨conn :: (header ++ body ++ rest), []⟩ =
      .returned (some ⟨proc, pipe, ev, cfg.timeoutMs, [], conin, conout,
        if cfg.flags &&& 1 ≠ 0 then conerr else []⟩) none w ∧ w.ios = rest ∧
      (startedIn w.log).map (fun x => (x.1.desktop, x.2)) = [(none, some pid)] := by
  obtain ⟨m, w1, k1, _, k2, k3, _⟩ := refuses_new (conn :: (header ++ body ++ rest)) href
  have hset : setupBackgroundDesktop c cfg env ⟨conn :: (header ++ body ++ rest), []⟩ = .ok none w1 := by
    unfold setupBackgroundDesktop
    rw [wantsDesktop hd]
    simp only [hproc, decide_false, Bool.false_eq_true, if_true, if_false, k1]
  obtain ⟨w2, q1, q2⟩ := session_opens (cfg := cfg) (shouldSpecifyHideFlag env) w1 []
    (params cfg) 16 hstart.event hstart.descriptor hstart.pipe hstart.exe hstart.process
    hstart.client k2 hconn
  obtain ⟨_, _, pid', hp, ht, es3, _, _, hpe, _, _, _, q3⟩ := session_shape q1
  rw [hstart.process] at hpe
  cases hpe
  obtain ⟨es4, r1⟩ := readNames_feed c (cfg.flags &&& 1 ≠ 0) w2
    (⟨proc, pipe, ev, cfg.timeoutMs, [], [], [], []⟩ : Session)
    conin conout conerr header body rest q2 hgood h8 (by simpa using hm) hv hmax h64 ha
  refine ⟨⟨rest, w2.log ++ es4.map (.io pipe)⟩, ?_, rfl, ?_⟩
  · unfold winptyOpen openBody
    simp only [hset, R.bind, AgentDesktop.name, AgentDesktop.dispose, q1, R.onThrow, finishOpen, if_true]
    rw [r1]
    simp
  · simp only [startedIn_append, feed_started, q3, sessionLog_started, k3, List.append_nil,
      List.nil_append, List.map_cons, List.map_nil, agentArgs, if_true]

example : WantsDesktop { exampleEnv with windows7 := false } := ⟨fun _ => rfl, rfl, rfl⟩

example : Starts exampleEnv.desktopAgent 22 23 43 24 25 := ⟨rfl, rfl, rfl, rfl, rfl, .inl rfl⟩

example : ((exampleIosDesktop.drop 1).take 2).flatMap Spec.Client.dataOf = message [.wstring [68]] ∧
    Connects (exampleIosDesktop.head (by decide)) ∧ Connects (exampleIosDesktop[3]'(by decide)) ∧
    ((exampleIosDesktop.drop 4).flatMap Spec.Client.dataOf) = message [.wstring [105], .wstring [111]] :=
  ⟨by decide +kernel, .inl ⟨0, [], .inl rfl⟩, .inl ⟨0, [], .inl rfl⟩, by decide +kernel⟩

/-- The desktop is refused in this process, and the call goes on. -/
example : sessionOf (winptyOpen exampleOpenCfg true { flags := 8 }
    { exampleEnv with windows7 := false, background := { exampleEnv.background with desktop := .error 5 } }
    ⟨exampleIos, []⟩) = some ⟨14, 13, 12, 30000, [], [105], [111], []⟩ := by decide +kernel

/-- By default a helper agent makes the desktop, and when the system refuses it there is no falling back: the
helper exits without connecting, and what the waiting library sees is that its agent died.  The call fails,
although everything else works. -/
theorem C77_no_fallback_defect :
    (∀ (denv : DesktopEnv) (connects : Bool) (began : Nat) (ts : List (PipeTick × Nat)), Refuses denv →
      ∃ w, handleCreateDesktop denv connects began ts = .exited w none) ∧
    (∀ (c : Client.Cfg) (cfg : Config) (env : Open.Env), WantsDesktop env → cfg.flags &&& 8 = 0 →
      ∀ (ev1 pipe1 : Int) (pid1 : Nat) (proc1 thr1 : Int), Starts env.desktopAgent ev1 pipe1 pid1 proc1 thr1 →
      ∀ rest, ∃ msg w, winptyOpen c true cfg env ⟨.pending .agentDied :: rest, []⟩ =
        .returned none (some ⟨6, msg⟩) w) := by
  refine ⟨?_, ?_⟩
  · intro denv connects began ts hr
    obtain ⟨w, h, _⟩ := C77_refused denv connects began ts hr
    exact ⟨w, h⟩
  · intro c cfg env hd hproc ev1 pipe1 pid1 proc1 thr1 hs rest
    unfold winptyOpen openBody setupBackgroundDesktop
    rw [wantsDesktop hd]
    simp only [hproc, decide_true, if_true, createAgentSession, createEvent, ask, hs.event, R.bind,
      createControlPipe, hs.descriptor, hs.pipe, R.onThrow, startAgentProcess, findAgentProgram, hs.exe, hs.process,
      onPipe, connectControlPipe, Client.overlapped, W.add, Client.handlePendingIo, Client.R.bind]
    exact ⟨_, _, rfl⟩

/-- With the helper gone the call fails; the same system gives a session when the caller asks for the
desktop in its own process. -/
example :
    codeOfOpen (winptyOpen exampleOpenCfg true {}
      { exampleEnv with windows7 := false, background := { exampleEnv.background with desktop := .error 5 } }
      ⟨.pending .agentDied :: exampleIos, []⟩) = 6 := by decide +kernel

end Winpty.Props
