import Verif.Spec.CreateDesktop
import Verif.Lemmas.NamedPipeIdle
import Verif.Lemmas.OpenShape
import Verif.Props.EventLoop
import Verif.Props.Buffer

/-! # Lemmas about the agent that makes a desktop -/
namespace Winpty.NamedPipe

open Winpty.Spec.CreateDesktop (dataOf)

theorem issue_input {s s1 : State} {w : Worker} {n : Nat} (h : shouldIssueIo .input s w = .yes s1 n) :
    s1 = s := by
  unfold shouldIssueIo at h
  simp only at h
  repeat' split at h
  all_goals first | cases h | skip
  rfl

theorem finish_received {s s' : State} {w : Worker} {n : Nat} {d : List Nat}
    (h : finish .input s w n d = some s') : s'.os.received.length ≤ s.os.received.length + d.length := by
  unfold finish completeIo transfer at h
  simp only [Option.some.injEq] at h
  subst h
  simp only [List.length_append, List.length_take]
  omega

theorem iterate_received (s : State) (a : Option Ans) :
    (∀ s', iterate .input s a = .again s' → ∃ n d, a = some (.done n d) ∧
      s'.os.received.length ≤ s.os.received.length + d.length) ∧
    (∀ s' b, iterate .input s a = .stop s' b → s'.os.received = s.os.received) := by
  unfold iterate
  constructor
  · intro s' h
    split at h
    · cases h
    · split at h
      · cases h
      · cases h
      · rename_i s1 size hi
        obtain rfl := issue_input hi
        split at h
        · cases h
        · split at h
          · cases h
          · split at h
            · cases h
            · rename_i hf
              cases h
              exact ⟨_, _, rfl, by simpa [noteCall] using finish_received hf⟩
          · cases h
  · intro s' b h
    split at h
    · cases h; rfl
    · split at h
      · cases h
      · cases h; rfl
      · rename_i s1 size hi
        obtain rfl := issue_input hi
        split at h
        · cases h
        · split at h
          · cases h; rfl
          · split at h
            · cases h
            · cases h
          · cases h; rfl

theorem serviceLoop_received : ∀ (ans : List Ans) (s : State) (p : Bool) (s' : State) (r : Result),
    serviceLoop .input s p ans = some (s', r) →
    s'.os.received.length ≤ s.os.received.length + (ans.flatMap dataOf).length := by
  intro ans
  induction ans with
  | nil =>
    intro s p s' r h
    unfold serviceLoop at h
    split at h
    · cases h
    · rename_i hi
      cases h
      rw [(iterate_received s none).2 _ _ hi]
      omega
    · rename_i hi
      obtain ⟨n, d, h1, _⟩ := (iterate_received s none).1 _ hi
      cases h1
  | cons a ans ih =>
    intro s p s' r h
    unfold serviceLoop at h
    split at h
    · cases h
    · rename_i hi
      cases h
      rw [(iterate_received s (some a)).2 _ _ hi]
      omega
    · rename_i hi
      obtain ⟨n, d, h1, h2⟩ := (iterate_received s (some a)).1 _ hi
      cases h1
      have := ih _ _ _ _ h
      simp only [List.flatMap_cons, List.length_append, dataOf]
      omega

theorem service_received {s s' : State} {ans : List Ans} {r : Result}
    (h : service .input s ans = some (s', r)) :
    s'.os.received.length ≤ s.os.received.length + (ans.flatMap dataOf).length := by
  unfold service at h
  split at h
  · cases h; omega
  · split at h
    · split at h
      · split at h
        · cases h
        · rename_i hf
          have h1 := finish_received hf
          have h2 := serviceLoop_received _ _ _ _ _ h
          simp only [List.flatMap_cons, List.length_append, dataOf]
          omega
      · cases h; omega
      · cases h; omega
    · exact serviceLoop_received _ _ _ _ _ h

theorem serviceWorkers_received {rd wr : Bool} {s : State} {ws rs : List Nat} {m : Nat}
    (hi : Inv rd wr s ws rs m) (hopen : s.pipe.opened = true) {jc : Bool} {waits waits' : List WaitOn}
    {ra wa : List Ans} {k : Nat} {s' : State} {b : Bool}
    (h : serviceWorkers s jc waits ra wa k = some (s', b, waits')) :
    s'.os.received.length ≤ s.os.received.length + (ra.flatMap dataOf).length := by
  unfold serviceWorkers at h
  split at h
  · cases h
  · rename_i s1 r h1
    have g1 := service_received h1
    split at h
    · cases h
    · rename_i s2 w h2
      obtain ⟨t, r', e1, o1, _⟩ := service_input s ra rs m hi.inp hi.sized (by
        intro hs
        have hnc : s.pipe.connecting = false := by
          cases hcc : s.pipe.connecting with
          | false => rfl
          | true => rw [(hi.wf.conn hcc).1] at hs; simp at hs
        refine ⟨hnc, hopen, ?_⟩
        rw [hi.wf.readMode, ← hi.wf.inp hopen hnc]; exact hs)
      rw [h1] at e1
      cases e1
      have h3 := (service_output s1 wa ws s2 w (outInv_same o1 (hi.out hopen)) h2).1
      have g2 : s2.os.received = s1.os.received := h3.2.2.1
      split at h
      · cases h
        unfold closePipe
        split
        · rw [g2]; exact g1
        · simp only [(osTakes_os s2 k).2.1, g2]; exact g1
      · cases h
        rw [g2]; exact g1

end Winpty.NamedPipe

namespace Winpty.CreateDesktop

open Winpty.Spec.CreateDesktop
open Winpty.Spec (message ValidField)
open Winpty.Agent (PipeTick)
open Winpty.EventLoop (Pause serviced pause timeout infinite)
open Winpty.NamedPipe (WaitOn)

/-- What holds between the turns. -/
structure Ok (name : List Nat) (s : State) : Prop where
  inv : NamedPipe.Inv true true s.pipe (message [.wstring name]) [] 65536
  connected : s.pipe.pipe.connecting = false
  size : s.pipe.pipe.readBufferSize = 65536
  exits : s.exiting = !s.pipe.pipe.opened

theorem start_eq {connects : Bool} {name : List Nat} {sizeMax : Nat} (hv : ValidField sizeMax (.wstring name))
    {s : State} (h : start connects name = some s) :
    connects = true ∧ Ok name s ∧ s.pipe.os.received = [] ∧ s.exiting = false := by
  have hw := Props.C01_writer sizeMax [.wstring name] (by simpa using hv)
  unfold Props.writtenPacket at hw
  unfold start at h
  split at h
  case isFalse => cases h
  rename_i hc
  rw [hw] at h
  simp only at h
  split at h
  · cases h
  · rename_i p r hstep
    cases h
    have hi := NamedPipe.step_inv (NamedPipe.opened_inv true true true 65536 (by omega)) _ p r
      (by intro n hn; cases hn) hstep
    simp only [NamedPipe.step, NamedPipe.opened, NamedPipe.startPipeWorkers, if_true, Option.some.injEq, Prod.mk.injEq]
      at hstep
    obtain ⟨rfl, _⟩ := hstep
    refine ⟨hc, ⟨?_, rfl, rfl, rfl⟩, rfl, rfl⟩
    simpa [NamedPipe.wrote, Spec.Pipe.consumes, message] using hi

theorem starts (name : List Nat) {sizeMax : Nat} (hv : ValidField sizeMax (.wstring name)) :
    ∃ s, start true name = some s := by
  have hw := Props.C01_writer sizeMax [.wstring name] (by simpa using hv)
  unfold Props.writtenPacket at hw
  unfold start
  rw [hw]
  exact ⟨_, rfl⟩

/-- The pipe's part of a turn. -/
theorem serviced_ok {name : List Nat} {s : State} (hk : Ok name s) (hx : s.exiting = false) {t : PipeTick}
    {p : NamedPipe.State} {did : Bool} {ev : List WaitOn} (h : serviced s.pipe t = some (p, did, ev)) :
    NamedPipe.Inv true true p (message [.wstring name]) [] 65536 ∧ p.pipe.connecting = false ∧
    p.pipe.readBufferSize = 65536 ∧ (did = false → p.pipe.opened = true) ∧
    (p.pipe.opened = true → p.pipe.inQueue.length < 65536 → WaitOn.input ∈ ev) ∧
    p.os.received.length ≤ s.pipe.os.received.length + (t.reads.flatMap dataOf).length := by
  have h0 : NamedPipe.Inv true true (NamedPipe.osTakes s.pipe t.takes) (message [.wstring name]) [] 65536 := by
    have := NamedPipe.step_inv hk.inv (.osTakes t.takes) (NamedPipe.osTakes s.pipe t.takes) []
      (by intro n h; cases h) rfl
    simpa [NamedPipe.wrote, Spec.Pipe.consumes] using this
  have ho : (NamedPipe.osTakes s.pipe t.takes).pipe.opened = true := by
    rw [NamedPipe.osTakes_pipe]
    have := hk.exits
    rw [hx] at this
    simpa using this.symm
  have hc : (NamedPipe.osTakes s.pipe t.takes).pipe.connecting = false := by
    rw [NamedPipe.osTakes_pipe]; exact hk.connected
  unfold serviced at h
  obtain ⟨g1, g2⟩ := NamedPipe.serviceIo_inv h0 _ _ _ _ _ _ _ h
  obtain ⟨g3, g4, _⟩ := NamedPipe.serviceIo_frame h0 _ _ _ _ _ _ _ h
  refine ⟨g1, g4 hc, ?_, ?_, ?_, ?_⟩
  · rw [g3, NamedPipe.osTakes_pipe]; exact hk.size
  · rintro rfl
    have := (NamedPipe.serviceIo_idle _ _ _ _ _ _ _ h).2.2.1
    rw [this]; exact ho
  · intro hop hl
    rcases g2 with g2 | ⟨_, g2⟩
    · rw [g2] at hop; cases hop
    · have hsome : p.pipe.input.isSome = true := g1.wf.inp hop (g4 hc)
      obtain ⟨w, k1, k2⟩ := g2.read hsome (by rw [g3, NamedPipe.osTakes_pipe, hk.size]; exact hl)
      exact g2.waitIn w k1 k2
  · unfold NamedPipe.serviceIo at h
    rw [if_neg (by simp [NamedPipe.Pipe.isClosed, ho]), if_neg (by simp [hc])] at h
    have := NamedPipe.serviceWorkers_received h0 ho h
    rwa [(NamedPipe.osTakes_os _ _).2.1] at this

theorem turn_ok {name : List Nat} {s s' : State} (hk : Ok name s) (hx : s.exiting = false) {t : PipeTick}
    {began now : Nat} {w : Pause} (h : turn s t began now = some (s', w)) :
    Ok name s' ∧ s'.pipe.os.received.length ≤ s.pipe.os.received.length + (t.reads.flatMap dataOf).length ∧
    (w = .again ∨ (s'.exiting = false ∧ ∃ hs, w = .wait hs 0xFFFFFFFF)) := by
  unfold turn at h
  split at h
  · cases h
  · rename_i p ev hs
    obtain ⟨g1, g2, g3, g4, g5, g6⟩ := serviced_ok hk hx hs
    cases h
    unfold onPipeIo
    split
    · rename_i hcl
      refine ⟨⟨g1, g2, g3, ?_⟩, g6, .inl rfl⟩
      simpa [NamedPipe.Pipe.isClosed] using hcl
    · rename_i hcl
      refine ⟨⟨g1, g2, g3, ?_⟩, g6, .inl rfl⟩
      simp only [NamedPipe.Pipe.isClosed, Bool.not_eq_true, Bool.not_eq_false'] at hcl
      simp [hx, hcl]
  · rename_i p ev hs
    obtain ⟨g1, g2, g3, g4, g5, g6⟩ := serviced_ok hk hx hs
    split at h
    · cases h
    · rename_i w' hw
      cases h
      refine ⟨⟨g1, g2, g3, ?_⟩, g6, .inr ⟨hx, ?_⟩⟩
      · simp [hx, g4 rfl]
      · unfold pause at hw
        have ht : timeout 0 (EventLoop.tickCount began) now = infinite := by simp [timeout]
        rw [ht] at hw
        split at hw
        · simp at hw
        · cases hw
          exact ⟨_, rfl⟩

theorem loop_ok {name : List Nat} {began : Nat} : ∀ (ts : List (PipeTick × Nat)) {s s' : State} {ws : List Pause},
    Ok name s → loop began s ts = some (s', ws) →
    Ok name s' ∧ (∀ w ∈ ws, w = .again ∨ ∃ hs, w = .wait hs 0xFFFFFFFF) ∧
    s'.pipe.os.received.length ≤ s.pipe.os.received.length + sent ts := by
  intro ts
  induction ts with
  | nil =>
    intro s s' ws hk h
    cases h
    exact ⟨hk, by simp, by omega⟩
  | cons t ts ih =>
    intro s s' ws hk h
    obtain ⟨t, now⟩ := t
    unfold loop at h
    split at h
    · cases h
      exact ⟨hk, by simp, by omega⟩
    · rename_i hx
      split at h
      · cases h
      · rename_i s1 w h1
        obtain ⟨k1, k2, k3⟩ := turn_ok hk (by simpa using hx) h1
        split at h
        · cases h
        · rename_i s2 ws' h2
          cases h
          obtain ⟨g1, g2, g3⟩ := ih k1 h2
          refine ⟨g1, ?_, ?_⟩
          · intro x hm
            rcases List.mem_cons.1 hm with rfl | hm
            · rcases k3 with k3 | ⟨_, k3⟩
              · exact .inl k3
              · exact .inr k3
            · exact g2 x hm
          · simp only [sent, List.flatMap_cons, List.length_append] at g3 ⊢
            omega

theorem turn_total {name : List Nat} {s : State} (hk : Ok name s) (hx : s.exiting = false) {t : PipeTick}
    {began now : Nat} (hf : Spec.Pipe.FullWrites t.writes)
    (hr : s.pipe.os.received.length + (t.reads.flatMap dataOf).length < 65536) :
    ∃ s' w, turn s t began now = some (s', w) := by
  have h0 : NamedPipe.Inv true true (NamedPipe.osTakes s.pipe t.takes) (message [.wstring name]) [] 65536 := by
    have := NamedPipe.step_inv hk.inv (.osTakes t.takes) (NamedPipe.osTakes s.pipe t.takes) []
      (by intro n h; cases h) rfl
    simpa [NamedPipe.wrote, Spec.Pipe.consumes] using this
  have ho : (NamedPipe.osTakes s.pipe t.takes).pipe.opened = true := by
    rw [NamedPipe.osTakes_pipe]
    have := hk.exits
    rw [hx] at this
    simpa using this.symm
  have hc : (NamedPipe.osTakes s.pipe t.takes).pipe.connecting = false := by
    rw [NamedPipe.osTakes_pipe]; exact hk.connected
  have hs : ∃ x, serviced s.pipe t = some x := by
    unfold serviced NamedPipe.serviceIo
    rw [if_neg (by simp [NamedPipe.Pipe.isClosed, ho]), if_neg (by simp [hc])]
    exact NamedPipe.serviceWorkers_total h0 ho _ _ _ _ _ hf
  obtain ⟨⟨p, did, ev⟩, hs⟩ := hs
  obtain ⟨g1, g2, g3, g4, g5, g6⟩ := serviced_ok hk hx hs
  unfold turn
  rw [hs]
  cases did with
  | true => exact ⟨_, _, rfl⟩
  | false =>
    have hl : p.pipe.inQueue.length < 65536 := by
      have := g1.inp.stream
      simp only [List.nil_append] at this
      rw [this]; omega
    have hin := g5 (g4 rfl) hl
    have hne : ev.map (fun e => (EventLoop.Which.control, e)) ≠ [] := by
      intro h
      rw [List.map_eq_nil_iff] at h
      rw [h] at hin
      cases hin
    refine ⟨{ s with pipe := p }, .wait (ev.map fun e => (.control, e)) (timeout 0 (EventLoop.tickCount began) now), ?_⟩
    simp only [pause]
    rw [if_neg hne]

theorem loop_total {name : List Nat} {began : Nat} : ∀ (ts : List (PipeTick × Nat)) {s : State}, Ok name s →
    Sound ts → s.pipe.os.received.length + sent ts < 65536 → ∃ x, loop began s ts = some x := by
  intro ts
  induction ts with
  | nil => intro s _ _ _; exact ⟨_, rfl⟩
  | cons t ts ih =>
    intro s hk hs hr
    obtain ⟨t, now⟩ := t
    simp only [sent, List.flatMap_cons, List.length_append] at hr
    unfold loop
    split
    · exact ⟨_, rfl⟩
    · rename_i hx
      obtain ⟨s1, w, h1⟩ := turn_total (began := began) (now := now) hk (by simpa using hx)
        (hs (t, now) (by simp)) (by simpa using (by omega :
          s.pipe.os.received.length + (t.reads.flatMap dataOf).length < 65536))
      obtain ⟨k1, k2, _⟩ := turn_ok hk (by simpa using hx) h1
      simp only at hr k2
      obtain ⟨⟨s2, ws⟩, h2⟩ := ih k1 (fun x hm => hs x (by simp [hm])) (by simp only [sent]; omega)
      rw [h1]
      simp only [h2]
      exact ⟨_, rfl⟩

theorem loop_append {began : Nat} : ∀ (ts us : List (PipeTick × Nat)) {s s1 : State} {ws : List Pause},
    loop began s ts = some (s1, ws) → loop began s (ts ++ us) =
      (loop began s1 us).map fun x => (x.1, ws ++ x.2) := by
  intro ts
  induction ts with
  | nil =>
    intro us s s1 ws h
    cases h
    rw [List.nil_append]
    cases loop began s us <;> simp
  | cons t ts ih =>
    intro us s s1 ws h
    obtain ⟨t, now⟩ := t
    rw [List.cons_append]
    rw [loop] at h ⊢
    split
    · rename_i hx
      rw [if_pos hx] at h
      cases h
      cases us with
      | nil => rfl
      | cons u us => obtain ⟨u, v⟩ := u; rw [loop, if_pos hx]; rfl
    · rename_i hx
      rw [if_neg hx] at h
      split at h
      · cases h
      · rename_i s2 w h1
        split at h
        · cases h
        · rename_i s3 ws' h2
          cases h
          rw [ih us h2]
          cases loop began s1 us <;> simp

end Winpty.CreateDesktop
