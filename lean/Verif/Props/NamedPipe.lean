import Verif.Model.NamedPipe

/-! # C28, C29: pipes neither lose, duplicate nor reorder bytes, and buffer a bounded amount -/
namespace Winpty.Spec.Pipe
open Winpty.NamedPipe

/-- Everything the program has written to a pipe, from its calls alone. -/
def written : List Op → List Nat
  | [] => []
  | .write data :: ops => data ++ written ops
  | _ :: ops => written ops

/-- Does the call remove what it returns from the pipe? -/
def consumes : Op → Bool
  | .read _ | .readToString _ | .readAllToString => true
  | _ => false

/-- Everything the program has read (and removed) from a pipe, from the values its calls returned. -/
def readOut : List Op → List (List Nat) → List Nat
  | op :: ops, r :: rs => (if consumes op then r else []) ++ readOut ops rs
  | _, _ => []

/-- All read-buffer sizes the program configures are at most `m`. -/
def SizesUpTo (m : Nat) (ops : List Op) : Prop := ∀ n, Op.setReadBufferSize n ∈ ops → n ≤ m

/-- The answers of the system never report a short write: each completed write transfers all of the
at most 64 KiB it was given. -/
def FullWrites : List Ans → Prop
  | [] => True
  | .done n _ :: as => 64 * 1024 ≤ n ∧ FullWrites as
  | _ :: as => FullWrites as

/-- The program uses the pipe only in the directions it was opened for, and the system neither
refuses the connection nor reports short writes. -/
def Proper (reading writing : Bool) : Op → Prop
  | .write _ => writing = true
  | .read _ | .peek _ | .readToString _ | .readAllToString | .setReadBufferSize _ => reading = true
  | .serviceIo conn _ wa _ => conn ≠ .failed ∧ FullWrites wa
  | .closePipe _ | .osTakes _ => True

end Winpty.Spec.Pipe

namespace Winpty.NamedPipe
open Winpty.Spec.Pipe

/-- Structural facts about a pipe opened for `rd`/`wr`. -/
structure Wf (rd wr : Bool) (s : State) : Prop where
  readMode : s.pipe.reading = rd
  writeMode : s.pipe.writing = wr
  closed : s.pipe.opened = false → s.pipe.connecting = false ∧ s.pipe.input = none ∧ s.pipe.output = none
  conn : s.pipe.connecting = true → s.pipe.input = none ∧ s.pipe.output = none
  inp : s.pipe.opened = true → s.pipe.connecting = false → s.pipe.input.isSome = rd
  out : s.pipe.opened = true → s.pipe.connecting = false → s.pipe.output.isSome = wr

/-- The pending part of the output side. -/
def OutOk (s : State) : Prop :=
  match s.pipe.output with
  | some w =>
    if w.pending then
      w.currentIoSize ≤ w.buffer.length ∧ w.currentIoSize ≤ ioSize ∧ s.os.taken ≤ w.currentIoSize ∧
      ∃ before, s.os.given = before ++ w.buffer.take w.currentIoSize ∧
        s.os.wire = before ++ w.buffer.take s.os.taken
    else s.os.wire = s.os.given
  | none => s.os.wire = s.os.given

/-- Output books, strong: everything accounted for. -/
def OutInv (s : State) (ws : List Nat) : Prop := s.os.given ++ s.pipe.outQueue = ws ∧ OutOk s

/-- Output books, weak: what holds after a pipe error or a cancellation. -/
def OutWeak (s : State) (ws : List Nat) : Prop :=
  s.os.given ++ s.pipe.outQueue = ws ∧ s.os.wire <+: s.os.given

/-- Bytes a pending read may still add. -/
def pendingRead (s : State) : Nat :=
  match s.pipe.input with
  | some w => if w.pending then w.currentIoSize else 0
  | none => 0

/-- Input books. -/
structure InInv (s : State) (rs : List Nat) (m : Nat) : Prop where
  stream : rs ++ s.pipe.inQueue = s.os.received
  limit : s.pipe.readBufferSize ≤ m
  bound : s.pipe.inQueue.length + pendingRead s < m + 64 * 1024
  reads : ∀ e ∈ s.os.reads, e.1 < e.2.1 ∧ e.2.2 = 64 * 1024 ∧ e.2.1 ≤ m

theorem overwrite_take (b d : List Nat) : (overwrite b d).take d.length = d := by
  simp [overwrite]

theorem overwrite_take' (b d : List Nat) (n : Nat) (h : d.length = n) : (overwrite b d).take n = d := by
  subst h; exact overwrite_take b d

theorem OutInv.weak {s : State} {ws : List Nat} (h : OutInv s ws) : OutWeak s ws := by
  obtain ⟨h1, h2⟩ := h
  refine ⟨h1, ?_⟩
  unfold OutOk at h2
  split at h2
  · split at h2
    · obtain ⟨_, _, h4, b, h5, h6⟩ := h2
      rename_i w _ _
      rw [h5, h6]
      refine (List.prefix_append_right_inj b).2 ?_
      exact List.take_prefix_take_left h4
    · rw [h2]; exact List.prefix_refl _
  · rw [h2]; exact List.prefix_refl _

/-! ## One iteration -/

/-- The state of the output side that `service .input` leaves alone. -/
def sameOut (s s' : State) : Prop :=
  s'.pipe.output = s.pipe.output ∧ s'.pipe.outQueue = s.pipe.outQueue ∧ s'.os.given = s.os.given ∧
  s'.os.wire = s.os.wire ∧ s'.os.taken = s.os.taken

/-- The state of the input side that `service .output` leaves alone. -/
def sameIn (s s' : State) : Prop :=
  s'.pipe.input = s.pipe.input ∧ s'.pipe.inQueue = s.pipe.inQueue ∧ s'.os.received = s.os.received ∧
  s'.os.reads = s.os.reads ∧ s'.pipe.readBufferSize = s.pipe.readBufferSize

/-- Neither changes these. -/
def sameBase (s s' : State) : Prop :=
  s'.pipe.opened = s.pipe.opened ∧ s'.pipe.connecting = s.pipe.connecting ∧
  s'.pipe.reading = s.pipe.reading ∧ s'.pipe.writing = s.pipe.writing ∧
  s'.pipe.readBufferSize = s.pipe.readBufferSize

theorem sameOut.trans {a b c : State} (h : sameOut a b) (g : sameOut b c) : sameOut a c := by
  obtain ⟨h1, h2, h3, h4, h5⟩ := h
  obtain ⟨g1, g2, g3, g4, g5⟩ := g
  exact ⟨g1.trans h1, g2.trans h2, g3.trans h3, g4.trans h4, g5.trans h5⟩

theorem sameIn.trans {a b c : State} (h : sameIn a b) (g : sameIn b c) : sameIn a c := by
  obtain ⟨h1, h2, h3, h4, h5⟩ := h
  obtain ⟨g1, g2, g3, g4, g5⟩ := g
  exact ⟨g1.trans h1, g2.trans h2, g3.trans h3, g4.trans h4, g5.trans h5⟩

theorem sameBase.trans {a b c : State} (h : sameBase a b) (g : sameBase b c) : sameBase a c := by
  obtain ⟨h1, h2, h3, h4, h5⟩ := h
  obtain ⟨g1, g2, g3, g4, g5⟩ := g
  exact ⟨g1.trans h1, g2.trans h2, g3.trans h3, g4.trans h4, g5.trans h5⟩

theorem sameOut.refl (s : State) : sameOut s s := ⟨rfl, rfl, rfl, rfl, rfl⟩
theorem sameIn.refl (s : State) : sameIn s s := ⟨rfl, rfl, rfl, rfl, rfl⟩
theorem sameBase.refl (s : State) : sameBase s s := ⟨rfl, rfl, rfl, rfl, rfl⟩

/-- The output side with a chunk handed to the system. -/
def issued (s : State) (w : Worker) (w' : Worker) (wire : List Nat) (taken : Nat) : State :=
  { pipe := { s.pipe with
      outQueue := s.pipe.outQueue.drop (min s.pipe.outQueue.length ioSize)
      output := some ⟨w'.pending, w'.currentIoSize, overwrite w.buffer
        (s.pipe.outQueue.take (min s.pipe.outQueue.length ioSize))⟩ }
    os := { s.os with
      given := s.os.given ++ s.pipe.outQueue.take (min s.pipe.outQueue.length ioSize)
      wire := wire, taken := taken } }

theorem take_min_self (l : List Nat) (n : Nat) : (l.take (min l.length n)).length = min l.length n := by
  rw [List.length_take]; omega

theorem iterate_output_empty (s : State) (w : Worker) (a : Option Ans) (hw : s.pipe.output = some w)
    (hq : s.pipe.outQueue = []) : iterate .output s a = .stop s false := by
  simp [iterate, Pipe.worker, hw, shouldIssueIo, hq]

theorem iterate_output_pending (s : State) (w : Worker) (a : Option Ans) (hw : s.pipe.output = some w)
    (hq : s.pipe.outQueue ≠ []) (ha : a = none ∨ a = some .pending) :
    iterate .output s a = .stop (issued s w
      { w with currentIoSize := min s.pipe.outQueue.length ioSize, pending := true } s.os.wire 0)
      false := by
  rcases ha with rfl | rfl <;>
  simp [iterate, Pipe.worker, hw, shouldIssueIo, hq, Pipe.setWorker, noteCall, issued, take_min_self,
    overwrite_take' _ _ _ (take_min_self s.pipe.outQueue ioSize)]

theorem iterate_output_error (s : State) (w : Worker) (hw : s.pipe.output = some w)
    (hq : s.pipe.outQueue ≠ []) :
    iterate .output s (some .error) = .stop (issued s w
      { w with currentIoSize := min s.pipe.outQueue.length ioSize } s.os.wire 0) true := by
  simp [iterate, Pipe.worker, hw, shouldIssueIo, hq, Pipe.setWorker, noteCall, issued,
    overwrite_take' _ _ _ (take_min_self s.pipe.outQueue ioSize)]

theorem iterate_output_done (s : State) (w : Worker) (n : Nat) (d : List Nat)
    (hw : s.pipe.output = some w) (hq : s.pipe.outQueue ≠ []) :
    iterate .output s (some (.done n d)) =
      if min s.pipe.outQueue.length ioSize ≤ n then
        .again (issued s w { w with currentIoSize := 0, pending := false }
          (s.os.wire ++ s.pipe.outQueue.take (min s.pipe.outQueue.length ioSize))
          (min s.pipe.outQueue.length ioSize))
      else .assertFailed := by
  generalize hb : overwrite w.buffer (s.pipe.outQueue.take (min s.pipe.outQueue.length ioSize)) = b
  have hbt := overwrite_take' w.buffer _ _ (take_min_self s.pipe.outQueue ioSize)
  rw [hb] at hbt
  split
  · rename_i h
    have hm : max 0 (min n (min s.pipe.outQueue.length ioSize)) = min s.pipe.outQueue.length ioSize := by
      omega
    simp only [iterate, Pipe.worker, hw, shouldIssueIo, if_pos hq, Pipe.setWorker, noteCall, issued,
      finish, transfer, completeIo, hm, hb, hbt, List.drop_zero, if_true]
  · rename_i h
    have hm : max 0 (min n (min s.pipe.outQueue.length ioSize)) ≠ min s.pipe.outQueue.length ioSize := by
      omega
    simp only [iterate, Pipe.worker, hw, shouldIssueIo, if_pos hq, Pipe.setWorker, noteCall,
      finish, transfer, completeIo, hm, if_false]

/-- What holds after serving the output side. -/
def OutAfter (s' : State) (r : Result) (ws : List Nat) : Prop :=
  s'.pipe.output.isSome = true ∧
  (r = .error → OutWeak s' ws) ∧
  (r ≠ .error → OutInv s' ws ∧
    (s'.pipe.outQueue ≠ [] → ∃ w', s'.pipe.output = some w' ∧ w'.pending = true))

theorem issued_given (s : State) (w w' : Worker) (wire : List Nat) (t : Nat) (ws : List Nat)
    (h : s.os.given ++ s.pipe.outQueue = ws) :
    (issued s w w' wire t).os.given ++ (issued s w w' wire t).pipe.outQueue = ws := by
  simp only [issued, List.append_assoc, List.take_append_drop]
  exact h

theorem outOk_idle {s : State} {w : Worker} (hw : s.pipe.output = some w) (hp : w.pending = false)
    (h : OutOk s) : s.os.wire = s.os.given := by
  unfold OutOk at h
  rw [hw] at h
  simpa [hp] using h

theorem iterate_output_after (s : State) (w : Worker) (a : Option Ans) (ws : List Nat)
    (hw : s.pipe.output = some w) (hp : w.pending = false) (hi : OutInv s ws) :
    match iterate .output s a with
    | .assertFailed => ∃ n d, a = some (.done n d) ∧ n < ioSize
    | .stop s' e => sameIn s s' ∧ sameBase s s' ∧ OutAfter s' (if e then .error else .noProgress) ws
    | .again s' => sameIn s s' ∧ sameBase s s' ∧ OutInv s' ws ∧
        s'.pipe.outQueue.length < s.pipe.outQueue.length ∧
        ∃ w', s'.pipe.output = some w' ∧ w'.pending = false := by
  by_cases hq : s.pipe.outQueue = []
  · rw [iterate_output_empty s w a hw hq]
    refine ⟨sameIn.refl s, sameBase.refl s, by simp [hw], by simp, fun _ => ⟨hi, fun h => absurd hq h⟩⟩
  · have hwg := outOk_idle hw hp hi.2
    have pend : ∀ a, a = none ∨ a = some Ans.pending → (match iterate .output s a with
      | .assertFailed => ∃ n d, a = some (.done n d) ∧ n < ioSize
      | .stop s' e => sameIn s s' ∧ sameBase s s' ∧ OutAfter s' (if e then .error else .noProgress) ws
      | .again s' => sameIn s s' ∧ sameBase s s' ∧ OutInv s' ws ∧
        s'.pipe.outQueue.length < s.pipe.outQueue.length ∧
        ∃ w', s'.pipe.output = some w' ∧ w'.pending = false) := by
      intro a ha
      rw [iterate_output_pending s w a hw hq ha]
      refine ⟨⟨rfl, rfl, rfl, rfl, rfl⟩, ⟨rfl, rfl, rfl, rfl, rfl⟩, rfl, by simp,
        fun _ => ⟨⟨issued_given _ _ _ _ _ _ hi.1, ?_⟩, fun _ => ⟨_, rfl, rfl⟩⟩⟩
      simp only [OutOk, issued, if_true]
      refine ⟨?_, Nat.min_le_right _ _, Nat.zero_le _, s.os.given, ?_, ?_⟩
      · simp only [overwrite, List.length_append, take_min_self]; omega
      · rw [overwrite_take' _ _ _ (take_min_self _ _)]
      · simp [hwg]
    match a with
    | none => exact pend none (.inl rfl)
    | some .pending => exact pend _ (.inr rfl)
    | some .error =>
      rw [iterate_output_error s w hw hq]
      refine ⟨⟨rfl, rfl, rfl, rfl, rfl⟩, ⟨rfl, rfl, rfl, rfl, rfl⟩, rfl,
        fun _ => ⟨issued_given _ _ _ _ _ _ hi.1, ?_⟩, by simp⟩
      simp only [issued, hwg]
      exact List.prefix_append _ _
    | some (.done n d) =>
      rw [iterate_output_done s w n d hw hq]
      by_cases hn : min s.pipe.outQueue.length ioSize ≤ n
      · rw [if_pos hn]
        refine ⟨⟨rfl, rfl, rfl, rfl, rfl⟩, ⟨rfl, rfl, rfl, rfl, rfl⟩,
          ⟨issued_given _ _ _ _ _ _ hi.1, ?_⟩, ?_, _, rfl, rfl⟩
        · simp only [OutOk, issued]
          simp [hwg]
        · have : 0 < s.pipe.outQueue.length := List.length_pos_iff.2 hq
          simp only [issued, List.length_drop, ioSize]
          omega
      · rw [if_neg hn]
        exact ⟨n, d, rfl, by omega⟩

theorem serviceLoop_output (ws : List Nat) : ∀ (ans : List Ans) (s : State) (w : Worker) (p : Bool)
    (s' : State) (r : Result), s.pipe.output = some w → w.pending = false → OutInv s ws →
    serviceLoop .output s p ans = some (s', r) →
    sameIn s s' ∧ sameBase s s' ∧ OutAfter s' r ws := by
  intro ans
  induction ans with
  | nil =>
    intro s w p s' r hw hp hi h
    have hit := iterate_output_after s w none ws hw hp hi
    rw [serviceLoop] at h
    cases hs : iterate .output s none with
    | assertFailed => rw [hs] at h; simp at h
    | again s1 =>
      rw [hs] at hit h
      by_cases hq : s.pipe.outQueue = []
      · rw [iterate_output_empty s w none hw hq] at hs; cases hs
      · rw [iterate_output_pending s w none hw hq (.inl rfl)] at hs; cases hs
    | stop s1 e =>
      rw [hs] at hit h
      simp only [Option.some.injEq, Prod.mk.injEq] at h
      obtain ⟨rfl, rfl⟩ := h
      obtain ⟨h1, h2, h3, h4, h5⟩ := hit
      refine ⟨h1, h2, h3, ?_, ?_⟩
      · intro he; apply h4; cases e <;> simp_all
        split at he <;> cases he
      · intro he; apply h5; cases e <;> simp_all
  | cons a rest ih =>
    intro s w p s' r hw hp hi h
    have hit := iterate_output_after s w (some a) ws hw hp hi
    rw [serviceLoop] at h
    cases hs : iterate .output s (some a) with
    | assertFailed => rw [hs] at h; simp at h
    | again s1 =>
      rw [hs] at hit h
      obtain ⟨h1, h2, h3, _, w', h5, h6⟩ := hit
      obtain ⟨g1, g2, g3⟩ := ih s1 w' true s' r h5 h6 h3 h
      exact ⟨h1.trans g1, h2.trans g2, g3⟩
    | stop s1 e =>
      rw [hs] at hit h
      simp only [Option.some.injEq, Prod.mk.injEq] at h
      obtain ⟨rfl, rfl⟩ := h
      obtain ⟨h1, h2, h3, h4, h5⟩ := hit
      refine ⟨h1, h2, h3, ?_, ?_⟩
      · intro he; apply h4; cases e <;> simp_all
        split at he <;> cases he
      · intro he; apply h5; cases e <;> simp_all

/-- Completion of a pending write. -/
theorem finish_output (s : State) (w : Worker) (n : Nat) (d : List Nat) (ws : List Nat)
    (hw : s.pipe.output = some w) (hp : w.pending = true) (hi : OutInv s ws) :
    match finish .output s w n d with
    | none => n < w.currentIoSize
    | some s' => sameIn s s' ∧ sameBase s s' ∧ OutInv s' ws ∧
        s'.pipe.outQueue = s.pipe.outQueue ∧ s'.pipe.output = some ⟨false, 0, w.buffer⟩ := by
  obtain ⟨h1, h2⟩ := hi
  unfold OutOk at h2
  rw [hw] at h2
  simp only [hp, if_true] at h2
  obtain ⟨hl, hio, ht, b, hg, hwr⟩ := h2
  by_cases hn : w.currentIoSize ≤ n ∨ s.os.taken = w.currentIoSize
  · have hm : max s.os.taken (min n w.currentIoSize) = w.currentIoSize := by omega
    simp only [finish, transfer, completeIo, hm, if_true, Pipe.setWorker]
    refine ⟨⟨rfl, rfl, rfl, rfl, rfl⟩, ⟨rfl, rfl, rfl, rfl, rfl⟩, ⟨h1, ?_⟩, trivial, trivial⟩
    simp only [OutOk]
    simp only [Bool.false_eq_true, if_false]
    rw [hwr, hg, List.append_assoc]
    congr 1
    have : w.buffer.take s.os.taken = (w.buffer.take w.currentIoSize).take s.os.taken := by
      rw [List.take_take, Nat.min_eq_left ht]
    rw [this, List.take_append_drop]
  · have hm : max s.os.taken (min n w.currentIoSize) ≠ w.currentIoSize := by omega
    simp only [finish, transfer, completeIo, hm, if_false]
    omega

theorem service_output (s : State) (ans : List Ans) (ws : List Nat) (s' : State) (r : Result)
    (hi : OutInv s ws) (h : service .output s ans = some (s', r)) :
    sameIn s s' ∧ sameBase s s' ∧ s'.pipe.output.isSome = s.pipe.output.isSome ∧
      (r = .error → OutWeak s' ws) ∧
      (r ≠ .error → OutInv s' ws ∧
        (s.pipe.output.isSome = true → s'.pipe.outQueue ≠ [] →
          ∃ w', s'.pipe.output = some w' ∧ w'.pending = true)) := by
  have same : (s', r) = (s, Result.noProgress) → s.pipe.output = none ∨
      (∃ w, s.pipe.output = some w ∧ w.pending = true) →
      sameIn s s' ∧ sameBase s s' ∧ s'.pipe.output.isSome = s.pipe.output.isSome ∧
      (r = .error → OutWeak s' ws) ∧
      (r ≠ .error → OutInv s' ws ∧
        (s.pipe.output.isSome = true → s'.pipe.outQueue ≠ [] →
          ∃ w', s'.pipe.output = some w' ∧ w'.pending = true)) := by
    intro he hc
    simp only [Prod.mk.injEq] at he
    obtain ⟨rfl, rfl⟩ := he
    refine ⟨sameIn.refl _, sameBase.refl _, rfl, by simp, fun _ => ⟨hi, fun hs _ => ?_⟩⟩
    rcases hc with hc | ⟨w, hc, hpw⟩
    · rw [hc] at hs; simp at hs
    · exact ⟨w, hc, hpw⟩
  unfold service at h
  cases hw : s.pipe.output with
  | none =>
    simp only [Pipe.worker, hw, Option.some.injEq] at h
    rw [hw] at same
    exact same h.symm (.inl rfl)
  | some w =>
    simp only [Pipe.worker, hw] at h
    by_cases hp : w.pending = true
    · rw [if_pos hp] at h
      rw [hw] at same
      match ans with
      | [] => exact same (by simpa using h.symm) (.inr ⟨w, rfl, hp⟩)
      | .pending :: _ => exact same (by simpa using h.symm) (.inr ⟨w, rfl, hp⟩)
      | .error :: _ =>
        simp only [Option.some.injEq, Prod.mk.injEq] at h
        obtain ⟨rfl, rfl⟩ := h
        exact ⟨sameIn.refl _, sameBase.refl _, by rw [hw], fun _ => hi.weak, by simp⟩
      | .done n d :: rest =>
        simp only at h
        have hf := finish_output s w n d ws hw hp hi
        cases hfe : finish .output s w n d with
        | none => rw [hfe] at h; simp at h
        | some s1 =>
          rw [hfe] at hf h
          obtain ⟨h1, h2, h3, h4, h5⟩ := hf
          obtain ⟨g1, g2, g3, g4, g5⟩ := serviceLoop_output ws rest s1 _ true s' r h5 rfl h3 h
          exact ⟨h1.trans g1, h2.trans g2, by simp [g3], g4, fun hr => ⟨(g5 hr).1, fun _ => (g5 hr).2⟩⟩
    · have hp' : w.pending = false := by simpa using hp
      rw [if_neg hp] at h
      obtain ⟨g1, g2, g3, g4, g5⟩ := serviceLoop_output ws ans s w false s' r hw hp' hi h
      exact ⟨g1, g2, by simp [g3], g4, fun hr => ⟨(g5 hr).1, fun _ => (g5 hr).2⟩⟩

/-! ## The input side -/

/-- What holds after serving the input side. -/
def InAfter (s' : State) (r : Result) (rs : List Nat) (m : Nat) : Prop :=
  s'.pipe.input.isSome = true ∧ InInv s' rs m ∧
  (r ≠ .error → s'.pipe.inQueue.length < s'.pipe.readBufferSize →
    ∃ w', s'.pipe.input = some w' ∧ w'.pending = true ∧ w'.currentIoSize = ioSize)

/-- The shape of pending reads. -/
def ReadSized (s : State) : Prop :=
  ∀ w, s.pipe.input = some w → w.pending = true → w.currentIoSize = ioSize

theorem finish_input (s : State) (w : Worker) (n : Nat) (d rs : List Nat) (m : Nat)
    (hstream : rs ++ s.pipe.inQueue = s.os.received) (hlim : s.pipe.readBufferSize ≤ m)
    (hb : s.pipe.inQueue.length + w.currentIoSize < m + 64 * 1024)
    (hr : ∀ e ∈ s.os.reads, e.1 < e.2.1 ∧ e.2.2 = 64 * 1024 ∧ e.2.1 ≤ m) :
    ∃ s', finish .input s w n d = some s' ∧ sameOut s s' ∧ sameBase s s' ∧ InInv s' rs m ∧
      ∃ w', s'.pipe.input = some w' ∧ w'.pending = false := by
  refine ⟨_, rfl, ⟨rfl, rfl, rfl, rfl, rfl⟩, ⟨rfl, rfl, rfl, rfl, rfl⟩, ⟨?_, hlim, ?_, hr⟩, _, rfl, rfl⟩
  · show rs ++ (s.pipe.inQueue ++ (overwrite w.buffer (d.take w.currentIoSize)).take
      (d.take w.currentIoSize).length) = s.os.received ++ d.take w.currentIoSize
    rw [overwrite_take, ← hstream, List.append_assoc]
  · show (s.pipe.inQueue ++ (overwrite w.buffer (d.take w.currentIoSize)).take
      (d.take w.currentIoSize).length).length + 0 < _
    rw [overwrite_take, List.length_append, List.length_take]
    omega

theorem iterate_input_after (s : State) (w : Worker) (a : Option Ans) (rs : List Nat) (m : Nat)
    (hw : s.pipe.input = some w) (hp : w.pending = false) (hi : InInv s rs m)
    (hc : s.pipe.connecting = false) (ho : s.pipe.opened = true) (hrd : s.pipe.reading = true) :
    match iterate .input s a with
    | .assertFailed => False
    | .stop s' e => sameOut s s' ∧ sameBase s s' ∧ ReadSized s' ∧
        InAfter s' (if e then .error else .noProgress) rs m
    | .again s' => (∃ n d, a = some (.done n d)) ∧ sameOut s s' ∧ sameBase s s' ∧ InInv s' rs m ∧
        ∃ w', s'.pipe.input = some w' ∧ w'.pending = false := by
  by_cases hq : s.pipe.inQueue.length < s.pipe.readBufferSize
  · have hissue : shouldIssueIo .input s w = .yes s ioSize := by
      simp [shouldIssueIo, Pipe.isConnecting, Pipe.isClosed, hc, ho, hrd, hq]
    have hlim := hi.limit
    have hreads : ∀ e ∈ s.os.reads ++ [(s.pipe.inQueue.length, s.pipe.readBufferSize, ioSize)],
        e.1 < e.2.1 ∧ e.2.2 = 64 * 1024 ∧ e.2.1 ≤ m := by
      intro e he
      rw [List.mem_append, List.mem_singleton] at he
      rcases he with he | rfl
      · exact hi.reads e he
      · exact ⟨hq, rfl, hlim⟩
    have hio : ioSize = 64 * 1024 := rfl
    have pend : ∀ a, a = none ∨ a = some Ans.pending → iterate .input s a =
        .stop { pipe := s.pipe.setWorker .input { w with currentIoSize := ioSize, pending := true }
                os := noteCall .input s w ioSize } false := by
      rintro a (rfl | rfl) <;> simp only [iterate, Pipe.worker, hw, hissue]
    have pend' : sameOut s { pipe := s.pipe.setWorker .input { w with currentIoSize := ioSize, pending := true }
                             os := noteCall .input s w ioSize } ∧
        sameBase s { pipe := s.pipe.setWorker .input { w with currentIoSize := ioSize, pending := true }
                     os := noteCall .input s w ioSize } ∧
        ReadSized { pipe := s.pipe.setWorker .input { w with currentIoSize := ioSize, pending := true }
                    os := noteCall .input s w ioSize } ∧
        InAfter { pipe := s.pipe.setWorker .input { w with currentIoSize := ioSize, pending := true }
                  os := noteCall .input s w ioSize } .noProgress rs m := by
      refine ⟨⟨rfl, rfl, rfl, rfl, rfl⟩, ⟨rfl, rfl, rfl, rfl, rfl⟩, ?_, rfl, ⟨hi.stream, hlim, ?_, hreads⟩,
        fun _ _ => ⟨_, rfl, rfl, rfl⟩⟩
      · intro w' hw' _
        simp only [Pipe.setWorker, Option.some.injEq] at hw'
        rw [← hw']
      · show s.pipe.inQueue.length + ioSize < _
        omega
    match a with
    | none => rw [pend _ (.inl rfl)]; simpa using pend'
    | some .pending => rw [pend _ (.inr rfl)]; simpa using pend'
    | some .error =>
      have e : iterate .input s (some .error) =
        .stop { pipe := s.pipe.setWorker .input { w with currentIoSize := ioSize }
                os := noteCall .input s w ioSize } true := by
        simp only [iterate, Pipe.worker, hw, hissue]
      rw [e]
      refine ⟨⟨rfl, rfl, rfl, rfl, rfl⟩, ⟨rfl, rfl, rfl, rfl, rfl⟩, ?_, rfl, ⟨hi.stream, hlim, ?_, hreads⟩,
        fun h => absurd rfl h⟩
      · intro w' hw' hp'
        simp only [Pipe.setWorker, Option.some.injEq] at hw'
        rw [← hw'] at hp'
        rw [hp] at hp'; cases hp'
      · show s.pipe.inQueue.length + (if w.pending then ioSize else 0) < _
        rw [hp]
        simp only [Bool.false_eq_true, if_false]
        omega
    | some (.done n d) =>
      obtain ⟨s2, h1, h2, h3, h4, h5⟩ := finish_input
        { pipe := s.pipe.setWorker .input { w with currentIoSize := ioSize }
          os := noteCall .input s w ioSize } { w with currentIoSize := ioSize } n d rs m hi.stream hlim
        (by show s.pipe.inQueue.length + ioSize < _; omega) hreads
      have e : iterate .input s (some (.done n d)) = .again s2 := by
        simp only [iterate, Pipe.worker, hw, hissue, h1]
      rw [e]
      exact ⟨⟨n, d, rfl⟩, h2, h3, h4, h5⟩
  · have hissue : shouldIssueIo .input s w = .no := by
      simp [shouldIssueIo, Pipe.isConnecting, Pipe.isClosed, hc, ho, hrd, hq]
    have e : iterate .input s a = .stop s false := by
      simp only [iterate, Pipe.worker, hw, hissue]
    rw [e]
    refine ⟨sameOut.refl s, sameBase.refl s, ?_, by simp [hw], hi, fun _ h => absurd h hq⟩
    intro w' hw' hp'
    rw [hw] at hw'
    cases hw'
    rw [hp] at hp'; cases hp'

theorem serviceLoop_input (rs : List Nat) (m : Nat) : ∀ (ans : List Ans) (s : State) (w : Worker)
    (p : Bool), s.pipe.input = some w → w.pending = false → InInv s rs m →
    s.pipe.connecting = false → s.pipe.opened = true → s.pipe.reading = true →
    ∃ s' r, serviceLoop .input s p ans = some (s', r) ∧
      sameOut s s' ∧ sameBase s s' ∧ ReadSized s' ∧ InAfter s' r rs m := by
  intro ans
  induction ans with
  | nil =>
    intro s w p hw hp hi hc ho hrd
    have hit := iterate_input_after s w none rs m hw hp hi hc ho hrd
    rw [serviceLoop]
    cases hs : iterate .input s none with
    | assertFailed => rw [hs] at hit; exact hit.elim
    | again s1 =>
      rw [hs] at hit
      obtain ⟨⟨n, d, h⟩, _⟩ := hit
      cases h
    | stop s1 e =>
      rw [hs] at hit
      obtain ⟨h1, h2, h3, h4, h5, h6⟩ := hit
      refine ⟨_, _, rfl, h1, h2, h3, h4, h5, fun hr => h6 ?_⟩
      cases e <;> simp_all
  | cons a rest ih =>
    intro s w p hw hp hi hc ho hrd
    have hit := iterate_input_after s w (some a) rs m hw hp hi hc ho hrd
    rw [serviceLoop]
    cases hs : iterate .input s (some a) with
    | assertFailed => rw [hs] at hit; exact hit.elim
    | again s1 =>
      rw [hs] at hit
      obtain ⟨_, h1, h2, h3, w', h5, h6⟩ := hit
      obtain ⟨b1, b2, b3, b4, b5⟩ := h2
      obtain ⟨s', r, g0, g1, g2, g3, g4⟩ := ih s1 w' true h5 h6 h3 (b2.trans hc) (b1.trans ho) (b3.trans hrd)
      exact ⟨s', r, g0, h1.trans g1, sameBase.trans ⟨b1, b2, b3, b4, b5⟩ g2, g3, g4⟩
    | stop s1 e =>
      rw [hs] at hit
      obtain ⟨h1, h2, h3, h4, h5, h6⟩ := hit
      refine ⟨_, _, rfl, h1, h2, h3, h4, h5, fun hr => h6 ?_⟩
      cases e <;> simp_all

theorem service_input (s : State) (ans : List Ans) (rs : List Nat) (m : Nat)
    (hi : InInv s rs m) (hz : ReadSized s)
    (hst : s.pipe.input.isSome = true →
      s.pipe.connecting = false ∧ s.pipe.opened = true ∧ s.pipe.reading = true) :
    ∃ s' r, service .input s ans = some (s', r) ∧ sameOut s s' ∧ sameBase s s' ∧ ReadSized s' ∧
      s'.pipe.input.isSome = s.pipe.input.isSome ∧ InInv s' rs m ∧
      (s.pipe.input.isSome = true → r ≠ .error → s'.pipe.inQueue.length < s'.pipe.readBufferSize →
        ∃ w', s'.pipe.input = some w' ∧ w'.pending = true ∧ w'.currentIoSize = ioSize) := by
  unfold service
  cases hw : s.pipe.input with
  | none =>
    simp only [Pipe.worker, hw]
    exact ⟨s, _, rfl, sameOut.refl s, sameBase.refl s, hz, by rw [hw], hi, by simp⟩
  | some w =>
    simp only [Pipe.worker, hw]
    obtain ⟨hc, ho, hrd⟩ := hst (by simp [hw])
    by_cases hp : w.pending = true
    · rw [if_pos hp]
      have stay : ∀ r, ∃ s' r', some (s, r) = some (s', r') ∧ sameOut s s' ∧ sameBase s s' ∧ ReadSized s' ∧
          s'.pipe.input.isSome = (some w).isSome ∧ InInv s' rs m ∧
          ((some w).isSome = true → r' ≠ Result.error →
            s'.pipe.inQueue.length < s'.pipe.readBufferSize →
            ∃ w', s'.pipe.input = some w' ∧ w'.pending = true ∧ w'.currentIoSize = ioSize) := fun r =>
        ⟨s, r, rfl, sameOut.refl s, sameBase.refl s, hz, by rw [hw], hi,
          fun _ _ _ => ⟨w, hw, hp, hz w hw hp⟩⟩
      match ans with
      | [] => exact stay _
      | .pending :: _ => exact stay _
      | .error :: _ => exact stay _
      | .done n d :: rest =>
        have hb := hi.bound
        unfold pendingRead at hb
        rw [hw] at hb
        simp only [hp, if_true] at hb
        obtain ⟨s1, h0, h1, ⟨b1, b2, b3, b4, b5⟩, h3, w', h4, h5⟩ :=
          finish_input s w n d rs m hi.stream hi.limit hb hi.reads
        obtain ⟨s', r, g0, g1, g2, g3, g4, g5, g6⟩ := serviceLoop_input rs m rest s1 w' true h4 h5 h3
          (b2.trans hc) (b1.trans ho) (b3.trans hrd)
        simp only [h0]
        exact ⟨s', r, g0, h1.trans g1, sameBase.trans ⟨b1, b2, b3, b4, b5⟩ g2, g3, by simp [g4], g5,
          fun _ => g6⟩
    · rw [if_neg hp]
      obtain ⟨s', r, g0, g1, g2, g3, g4, g5, g6⟩ := serviceLoop_input rs m ans s w false hw
        (by simpa using hp) hi hc ho hrd
      exact ⟨s', r, g0, g1, g2, g3, by simp [g4], g5, fun _ => g6⟩

/-! ## Any history -/

/-- The invariant of a pipe. -/
structure Inv (rd wr : Bool) (s : State) (ws rs : List Nat) (m : Nat) : Prop where
  wf : Wf rd wr s
  sized : ReadSized s
  inp : InInv s rs m
  out : s.pipe.opened = true → OutInv s ws
  outClosed : OutWeak s ws

theorem osTakes_pipe (s : State) (k : Nat) : (osTakes s k).pipe = s.pipe := by
  unfold osTakes; split
  · split <;> rfl
  · rfl

theorem osTakes_os (s : State) (k : Nat) : (osTakes s k).os.given = s.os.given ∧
    (osTakes s k).os.received = s.os.received ∧ (osTakes s k).os.reads = s.os.reads := by
  unfold osTakes; split
  · split <;> exact ⟨rfl, rfl, rfl⟩
  · exact ⟨rfl, rfl, rfl⟩

theorem osTakes_out (s : State) (k : Nat) (ws : List Nat) (h : OutInv s ws) :
    OutInv (osTakes s k) ws := by
  refine ⟨by rw [osTakes_pipe, (osTakes_os s k).1]; exact h.1, ?_⟩
  have h2 := h.2
  unfold OutOk at h2 ⊢
  rw [osTakes_pipe]
  cases hw : s.pipe.output with
  | none =>
    rw [hw] at h2
    simpa [osTakes, hw] using h2
  | some w =>
    rw [hw] at h2
    by_cases hp : w.pending = true
    · simp only [hp, if_true] at h2 ⊢
      obtain ⟨h3, h4, h5, b, h6, h7⟩ := h2
      simp only [osTakes, hw, hp, if_true]
      refine ⟨h3, h4, by omega, b, h6, ?_⟩
      rw [h7, List.append_assoc]
      congr 1
      have e : max s.os.taken (min (s.os.taken + k) w.currentIoSize) =
          min (s.os.taken + k) w.currentIoSize := by omega
      rw [e]
      have : w.buffer.take s.os.taken =
          (w.buffer.take (min (s.os.taken + k) w.currentIoSize)).take s.os.taken := by
        rw [List.take_take, Nat.min_eq_left (by omega)]
      rw [this, List.take_append_drop]
    · simp only [hp, Bool.false_eq_true, if_false] at h2 ⊢
      simpa [osTakes, hw, hp] using h2

theorem osTakes_weak (s : State) (k : Nat) (ws : List Nat) (h : OutWeak s ws)
    (ho : ∀ w, s.pipe.output = some w → w.pending = false) : OutWeak (osTakes s k) ws := by
  have : osTakes s k = s := by
    unfold osTakes
    split
    · rename_i w hw
      simp [ho w hw]
    · rfl
  rw [this]; exact h

theorem inInv_congr {s s' : State} {rs : List Nat} {m : Nat} (h : InInv s rs m)
    (h1 : s'.pipe.inQueue = s.pipe.inQueue) (h2 : s'.os.received = s.os.received)
    (h3 : s'.pipe.readBufferSize = s.pipe.readBufferSize) (h4 : s'.os.reads = s.os.reads)
    (h5 : pendingRead s' ≤ pendingRead s) : InInv s' rs m := by
  refine ⟨by rw [h1, h2]; exact h.stream, by rw [h3]; exact h.limit, ?_, by rw [h4]; exact h.reads⟩
  have := h.bound
  rw [h1]
  omega

/-- Closing a pipe whose books are in order, or whose output has just failed. -/
theorem closePipe_inv {rd wr : Bool} {s : State} {ws rs : List Nat} {m : Nat} (k : Nat)
    (wf : Wf rd wr s) (inp : InInv s rs m) (hopen : s.pipe.opened = true)
    (out : OutInv s ws ∨ (OutWeak s ws ∧ ∀ w, s.pipe.output = some w → w.pending = false)) :
    Inv rd wr (closePipe s k) ws rs m ∧ (closePipe s k).pipe.opened = false := by
  have e : closePipe s k = { (osTakes s k) with pipe := { s.pipe with
      opened := false, connecting := false, input := none, output := none } } := by
    simp [closePipe, Pipe.isClosed, hopen, osTakes_pipe]
  have hw : OutWeak (osTakes s k) ws := by
    rcases out with h | ⟨h, h'⟩
    · exact (osTakes_out s k ws h).weak
    · exact osTakes_weak s k ws h h'
  have ho := osTakes_os s k
  rw [e]
  refine ⟨⟨⟨wf.readMode, wf.writeMode, fun _ => ⟨rfl, rfl, rfl⟩, fun h => (by cases h), fun h => (by cases h),
    fun h => (by cases h)⟩, ?_, ?_, fun h => (by cases h), ?_⟩, rfl⟩
  · intro w hw; cases hw
  · exact inInv_congr inp rfl ho.2.1 rfl ho.2.2 (by simp [pendingRead])
  · refine ⟨?_, hw.2⟩
    have := hw.1
    rw [osTakes_pipe] at this
    exact this

theorem outOk_congr {s s' : State} (h1 : s'.pipe.output = s.pipe.output) (h2 : s'.os.given = s.os.given)
    (h3 : s'.os.wire = s.os.wire) (h4 : s'.os.taken = s.os.taken) (h : OutOk s) : OutOk s' := by
  unfold OutOk at h ⊢
  rw [h1, h2, h3, h4]
  exact h

theorem outInv_same {s s' : State} {ws : List Nat} (h : sameOut s s') (hi : OutInv s ws) :
    OutInv s' ws := by
  obtain ⟨h1, h2, h3, h4, h5⟩ := h
  exact ⟨by rw [h2, h3]; exact hi.1, outOk_congr h1 h3 h4 h5 hi.2⟩

theorem inInv_same {s s' : State} {rs : List Nat} {m : Nat} (h : sameIn s s') (hi : InInv s rs m) :
    InInv s' rs m := by
  obtain ⟨h1, h2, h3, h4, h5⟩ := h
  exact inInv_congr hi h2 h3 h5 h4 (by simp [pendingRead, h1])

/-- After a pipe error on the output side no write is pending (or the error was reported for the
pending write, whose books are in order). -/
theorem serviceLoop_output_error (ws : List Nat) : ∀ (ans : List Ans) (s : State) (w : Worker) (p : Bool)
    (s' : State), s.pipe.output = some w → w.pending = false → OutInv s ws →
    serviceLoop .output s p ans = some (s', .error) →
    ∀ w', s'.pipe.output = some w' → w'.pending = false := by
  intro ans
  have key : ∀ (s : State) (w : Worker) (p : Bool) (a : Option Ans) (s1 s' : State) (e : Bool),
      s.pipe.output = some w → w.pending = false → iterate .output s a = .stop s1 e →
      (if e then Result.error else if p then .progress else .noProgress) = .error → s1 = s' →
      ∀ w', s'.pipe.output = some w' → w'.pending = false := by
    intro s w p a s1 s' e hw hp hs he hss w' hw'
    subst hss
    cases e with
    | false => cases p <;> simp at he
    | true =>
      by_cases hq : s.pipe.outQueue = []
      · rw [iterate_output_empty s w a hw hq] at hs; cases hs
      · match a with
        | none => rw [iterate_output_pending s w _ hw hq (.inl rfl)] at hs; cases hs
        | some .pending => rw [iterate_output_pending s w _ hw hq (.inr rfl)] at hs; cases hs
        | some (.done n d) =>
          rw [iterate_output_done s w n d hw hq] at hs
          split at hs <;> cases hs
        | some .error =>
          rw [iterate_output_error s w hw hq] at hs
          simp only [Iteration.stop.injEq, and_true] at hs
          rw [← hs] at hw'
          simp only [issued, Option.some.injEq] at hw'
          rw [← hw']
          exact hp
  induction ans with
  | nil =>
    intro s w p s' hw hp hi h
    rw [serviceLoop] at h
    cases hs : iterate .output s none with
    | assertFailed => rw [hs] at h; simp at h
    | again s1 => rw [hs] at h; simp at h
    | stop s1 e =>
      rw [hs] at h
      simp only [Option.some.injEq, Prod.mk.injEq] at h
      exact key s w p none s1 s' e hw hp hs h.2 h.1
  | cons a rest ih =>
    intro s w p s' hw hp hi h
    rw [serviceLoop] at h
    have hit := iterate_output_after s w (some a) ws hw hp hi
    cases hs : iterate .output s (some a) with
    | assertFailed => rw [hs] at h; simp at h
    | again s1 =>
      rw [hs] at h hit
      obtain ⟨_, _, h3, _, w', h5, h6⟩ := hit
      exact ih s1 w' true s' h5 h6 h3 h
    | stop s1 e =>
      rw [hs] at h
      simp only [Option.some.injEq, Prod.mk.injEq] at h
      exact key s w p _ s1 s' e hw hp hs h.2 h.1

theorem service_output_error (s : State) (ans : List Ans) (ws : List Nat) (s' : State)
    (hi : OutInv s ws) (h : service .output s ans = some (s', .error)) :
    OutInv s' ws ∨ (OutWeak s' ws ∧ ∀ w, s'.pipe.output = some w → w.pending = false) := by
  have hw' := (service_output s ans ws s' .error hi h).2.2.2.1 rfl
  unfold service at h
  cases hw : s.pipe.output with
  | none => simp [Pipe.worker, hw] at h
  | some w =>
    simp only [Pipe.worker, hw] at h
    by_cases hp : w.pending = true
    · rw [if_pos hp] at h
      match ans with
      | [] => simp at h
      | .pending :: _ => simp at h
      | .error :: _ =>
        simp only [Option.some.injEq, Prod.mk.injEq, and_true] at h
        subst h
        exact .inl hi
      | .done n d :: rest =>
        simp only at h
        have hf := finish_output s w n d ws hw hp hi
        cases hfe : finish .output s w n d with
        | none => rw [hfe] at h; simp at h
        | some s1 =>
          rw [hfe] at hf h
          obtain ⟨h1, h2, h3, h4, h5⟩ := hf
          exact .inr ⟨hw', serviceLoop_output_error ws rest s1 _ true s' h5 rfl h3 h⟩
    · rw [if_neg hp] at h
      exact .inr ⟨hw', serviceLoop_output_error ws ans s w false s' hw (by simpa using hp) hi h⟩

theorem wf_same {rd wr : Bool} {s s' : State} (h : Wf rd wr s) (hb : sameBase s s')
    (h1 : s'.pipe.input.isSome = s.pipe.input.isSome) (h2 : s'.pipe.output.isSome = s.pipe.output.isSome) :
    Wf rd wr s' := by
  obtain ⟨b1, b2, b3, b4, b5⟩ := hb
  have none_of : ∀ {o o' : Option Worker}, o'.isSome = o.isSome → o = none → o' = none := by
    intro o o' e hn; subst hn; cases o' <;> simp_all
  refine ⟨b3.trans h.readMode, b4.trans h.writeMode, ?_, ?_, ?_, ?_⟩
  · intro ho
    obtain ⟨c1, c2, c3⟩ := h.closed (b1 ▸ ho)
    exact ⟨b2.trans c1, none_of h1 c2, none_of h2 c3⟩
  · intro hc
    obtain ⟨c2, c3⟩ := h.conn (b2 ▸ hc)
    exact ⟨none_of h1 c2, none_of h2 c3⟩
  · intro ho hc
    rw [h1]; exact h.inp (b1 ▸ ho) (b2 ▸ hc)
  · intro ho hc
    rw [h2]; exact h.out (b1 ▸ ho) (b2 ▸ hc)

/-- What `serviceIo` guarantees on top of the books: everything that can be in progress is. -/
structure Busy (s : State) (waits : List WaitOn) : Prop where
  connect : s.pipe.connecting = true → WaitOn.connect ∈ waits
  waitIn : ∀ w, s.pipe.input = some w → w.pending = true → WaitOn.input ∈ waits
  waitOut : ∀ w, s.pipe.output = some w → w.pending = true → WaitOn.output ∈ waits
  write : s.pipe.output.isSome = true → s.pipe.outQueue ≠ [] →
    ∃ w, s.pipe.output = some w ∧ w.pending = true
  read : s.pipe.input.isSome = true → s.pipe.inQueue.length < s.pipe.readBufferSize →
    ∃ w, s.pipe.input = some w ∧ w.pending = true

theorem serviceWorkers_inv {rd wr : Bool} {s : State} {ws rs : List Nat} {m : Nat}
    (hi : Inv rd wr s ws rs m) (hopen : s.pipe.opened = true) (jc : Bool) (waits : List WaitOn)
    (hc : s.pipe.connecting = true → WaitOn.connect ∈ waits)
    (ra wa : List Ans) (k : Nat) (s' : State) (b : Bool) (waits' : List WaitOn)
    (h : serviceWorkers s jc waits ra wa k = some (s', b, waits')) :
    Inv rd wr s' ws rs m ∧ (s'.pipe.opened = false ∨ (s'.pipe.opened = true ∧ Busy s' waits')) := by
  obtain ⟨s1, r, e1, o1, b1, z1, i1, n1, p1⟩ := service_input s ra rs m hi.inp hi.sized (by
    intro hs
    have hnc : s.pipe.connecting = false := by
      cases hcc : s.pipe.connecting with
      | false => rfl
      | true => rw [(hi.wf.conn hcc).1] at hs; simp at hs
    refine ⟨hnc, hopen, ?_⟩
    rw [hi.wf.readMode, ← hi.wf.inp hopen hnc]; exact hs)
  have out1 : OutInv s1 ws := outInv_same o1 (hi.out hopen)
  have wf1 : Wf rd wr s1 := wf_same hi.wf b1 i1 (by rw [o1.1])
  unfold serviceWorkers at h
  rw [e1] at h
  simp only at h
  cases e2 : service .output s1 wa with
  | none => rw [e2] at h; simp at h
  | some x =>
    obtain ⟨s2, r2⟩ := x
    rw [e2] at h
    simp only at h
    obtain ⟨q1, q2, q3, q4, q5⟩ := service_output s1 wa ws s2 r2 out1 e2
    have wf2 : Wf rd wr s2 := wf_same wf1 q2 (by rw [q1.1]) q3
    have in2 : InInv s2 rs m := inInv_same q1 n1
    have z2 : ReadSized s2 := by
      intro w hw; rw [q1.1] at hw; exact z1 w hw
    have op2 : s2.pipe.opened = true := by rw [q2.1, b1.1]; exact hopen
    split at h
    · simp only [Option.some.injEq, Prod.mk.injEq] at h
      obtain ⟨rfl, _, _⟩ := h
      have hout : OutInv s2 ws ∨ (OutWeak s2 ws ∧ ∀ w, s2.pipe.output = some w → w.pending = false) := by
        by_cases hr : r2 = .error
        · subst hr; exact service_output_error s1 wa ws s2 out1 e2
        · exact .inl (q5 hr).1
      have := closePipe_inv k wf2 in2 op2 hout
      exact ⟨this.1, .inl this.2⟩
    · rename_i hne
      rw [not_or] at hne
      simp only [Option.some.injEq, Prod.mk.injEq] at h
      obtain ⟨rfl, _, rfl⟩ := h
      obtain ⟨q6, q7⟩ := q5 hne.2
      refine ⟨⟨wf2, z2, in2, fun _ => q6, q6.weak⟩, .inr ⟨op2, ?_, ?_, ?_, ?_, ?_⟩⟩
      · intro hcc
        rw [q2.2.1, b1.2.1] at hcc
        simp [hc hcc]
      · intro w hw hp; simp [hasWaitEvent, hw, hp]
      · intro w hw hp; simp [hasWaitEvent, hw, hp]
      · intro hs; exact q7 (by rw [← q3]; exact hs)
      · intro hs hlt
        rw [q1.1] at hs ⊢
        rw [q1.2.1, q1.2.2.2.2] at hlt
        obtain ⟨w', g1, g2, _⟩ := p1 (by rw [← i1]; exact hs) hne.1 hlt
        exact ⟨w', g1, g2⟩

theorem start_inv {rd wr : Bool} {s : State} {ws rs : List Nat} {m : Nat} (hi : Inv rd wr s ws rs m)
    (hopen : s.pipe.opened = true) (hc : s.pipe.connecting = true) :
    Inv rd wr { s with pipe := startPipeWorkers { s.pipe with connecting := false } } ws rs m := by
  obtain ⟨c1, c2⟩ := hi.wf.conn hc
  have hout := hi.out hopen
  have ok : s.os.wire = s.os.given := by
    have := hout.2; unfold OutOk at this; rw [c2] at this; exact this
  have hpr : pendingRead { s with pipe := startPipeWorkers { s.pipe with connecting := false } } = 0 := by
    simp only [pendingRead, startPipeWorkers]
    split
    · rename_i w hw
      split at hw
      · cases hw; rfl
      · rw [c1] at hw; cases hw
    · rfl
  have oi : OutInv { s with pipe := startPipeWorkers { s.pipe with connecting := false } } ws := by
    refine ⟨hout.1, ?_⟩
    unfold OutOk
    split
    · rename_i w hw
      simp only [startPipeWorkers] at hw
      split at hw
      · cases hw; simpa [newWorker] using ok
      · rw [c2] at hw; cases hw
    · exact ok
  refine ⟨⟨hi.wf.readMode, hi.wf.writeMode, ?_, ?_, ?_, ?_⟩, ?_, ?_, fun _ => oi, oi.weak⟩
  · intro h; rw [show (startPipeWorkers { s.pipe with connecting := false }).opened = s.pipe.opened from rfl,
      hopen] at h; cases h
  · intro h; simp [startPipeWorkers] at h
  · intro _ _
    simp only [startPipeWorkers]
    rw [hi.wf.readMode]
    cases rd <;> simp [c1]
  · intro _ _
    simp only [startPipeWorkers]
    rw [hi.wf.writeMode]
    cases wr <;> simp [c2]
  · intro w hw hp
    simp only [startPipeWorkers] at hw
    split at hw
    · cases hw; cases hp
    · rw [c1] at hw; cases hw
  · exact inInv_congr hi.inp rfl rfl rfl rfl (by rw [hpr]; omega)

theorem serviceIo_inv {rd wr : Bool} {s : State} {ws rs : List Nat} {m : Nat}
    (hi : Inv rd wr s ws rs m) (conn : ConnectAns) (ra wa : List Ans) (k : Nat) (s' : State) (b : Bool)
    (waits' : List WaitOn) (h : NamedPipe.serviceIo s conn ra wa k = some (s', b, waits')) :
    Inv rd wr s' ws rs m ∧ (s'.pipe.opened = false ∨ (s'.pipe.opened = true ∧ Busy s' waits')) := by
  unfold NamedPipe.serviceIo at h
  by_cases ho : s.pipe.opened = true
  · rw [if_neg (by simp [Pipe.isClosed, ho])] at h
    by_cases hc : s.pipe.connecting = true
    · rw [if_pos hc] at h
      cases conn with
      | failed => simp at h
      | incomplete => exact serviceWorkers_inv hi ho false _ (by simp) ra wa k s' b waits' h
      | connected =>
        exact serviceWorkers_inv (start_inv hi ho hc) ho true _
          (by intro h; simp [startPipeWorkers] at h) ra wa k s' b waits' h
    · rw [if_neg hc] at h
      exact serviceWorkers_inv hi ho false _ (fun h => absurd h hc) ra wa k s' b waits' h
  · rw [if_pos (by simpa [Pipe.isClosed] using ho)] at h
    simp only [Option.some.injEq, Prod.mk.injEq] at h
    obtain ⟨rfl, _, _⟩ := h
    exact ⟨hi, .inl (by simpa using ho)⟩

/-- Effect of one operation on the two streams. -/
def wrote : Op → List Nat
  | .write d => d
  | _ => []

theorem step_inv {rd wr : Bool} {s : State} {ws rs : List Nat} {m : Nat}
    (hi : Inv rd wr s ws rs m) (op : Op) (s' : State) (r : List Nat)
    (hsz : ∀ n, op = .setReadBufferSize n → n ≤ m) (h : step s op = some (s', r)) :
    Inv rd wr s' (ws ++ wrote op) (rs ++ if consumes op then r else []) m := by
  have inq : ∀ q q' : List Nat, q ++ q' = s.pipe.inQueue →
      Inv rd wr { s with pipe := { s.pipe with inQueue := q' } } ws (rs ++ q) m := by
    intro q q' hq
    refine ⟨⟨hi.wf.readMode, hi.wf.writeMode, hi.wf.closed, hi.wf.conn, hi.wf.inp, hi.wf.out⟩, hi.sized,
      ⟨?_, hi.inp.limit, ?_, hi.inp.reads⟩, hi.out, hi.outClosed⟩
    · show rs ++ q ++ q' = _
      rw [List.append_assoc, hq]; exact hi.inp.stream
    · have h1 := hi.inp.bound
      have h2 : q'.length ≤ s.pipe.inQueue.length := by rw [← hq]; simp
      show q'.length + pendingRead s < _
      omega
  cases op with
  | write d =>
    simp only [step] at h
    split at h
    · simp only [Option.some.injEq, Prod.mk.injEq] at h
      obtain ⟨rfl, rfl⟩ := h
      simp only [wrote, consumes, Bool.false_eq_true, if_false, List.append_nil]
      refine ⟨⟨hi.wf.readMode, hi.wf.writeMode, hi.wf.closed, hi.wf.conn, hi.wf.inp, hi.wf.out⟩, hi.sized,
        ⟨hi.inp.stream, hi.inp.limit, hi.inp.bound, hi.inp.reads⟩, ?_, ?_⟩
      · intro ho
        refine ⟨?_, (hi.out ho).2⟩
        show s.os.given ++ (s.pipe.outQueue ++ d) = _
        rw [← List.append_assoc, (hi.out ho).1]
      · refine ⟨?_, hi.outClosed.2⟩
        show s.os.given ++ (s.pipe.outQueue ++ d) = _
        rw [← List.append_assoc, hi.outClosed.1]
    · cases h
  | peek n =>
    simp only [step] at h
    split at h
    · simp only [Option.some.injEq, Prod.mk.injEq] at h
      obtain ⟨rfl, rfl⟩ := h
      simpa [wrote, consumes] using hi
    · cases h
  | read n =>
    simp only [step] at h
    split at h
    · simp only [Option.some.injEq, Prod.mk.injEq] at h
      obtain ⟨rfl, rfl⟩ := h
      simpa [wrote, consumes] using inq _ _ (List.take_append_drop (min n s.pipe.inQueue.length) s.pipe.inQueue)
    · cases h
  | readToString n =>
    simp only [step] at h
    split at h
    · simp only [Option.some.injEq, Prod.mk.injEq] at h
      obtain ⟨rfl, rfl⟩ := h
      simpa [wrote, consumes] using inq _ _ (List.take_append_drop (min n s.pipe.inQueue.length) s.pipe.inQueue)
    · cases h
  | readAllToString =>
    simp only [step] at h
    split at h
    · simp only [Option.some.injEq, Prod.mk.injEq] at h
      obtain ⟨rfl, rfl⟩ := h
      simpa [wrote, consumes] using inq s.pipe.inQueue [] (List.append_nil _)
    · cases h
  | setReadBufferSize n =>
    simp only [step] at h
    split at h
    · simp only [Option.some.injEq, Prod.mk.injEq] at h
      obtain ⟨rfl, rfl⟩ := h
      simp only [wrote, consumes, Bool.false_eq_true, if_false, List.append_nil]
      exact ⟨⟨hi.wf.readMode, hi.wf.writeMode, hi.wf.closed, hi.wf.conn, hi.wf.inp, hi.wf.out⟩, hi.sized,
        ⟨hi.inp.stream, hsz n rfl, hi.inp.bound, hi.inp.reads⟩, hi.out, hi.outClosed⟩
    · cases h
  | serviceIo conn ra wa k =>
    simp only [step] at h
    split at h
    · cases h
    · rename_i s1 b w e
      simp only [Option.some.injEq, Prod.mk.injEq] at h
      obtain ⟨rfl, rfl⟩ := h
      simpa [wrote, consumes] using (serviceIo_inv hi conn ra wa k s1 b w e).1
  | closePipe k =>
    simp only [step, Option.some.injEq, Prod.mk.injEq] at h
    obtain ⟨rfl, rfl⟩ := h
    simp only [wrote, consumes, Bool.false_eq_true, if_false, List.append_nil]
    by_cases ho : s.pipe.opened = true
    · exact (closePipe_inv k hi.wf hi.inp ho (.inl (hi.out ho))).1
    · have : NamedPipe.closePipe s k = s := by
        unfold NamedPipe.closePipe
        rw [if_pos (by simpa [Pipe.isClosed] using ho)]
      rw [this]; exact hi
  | osTakes k =>
    simp only [step, Option.some.injEq, Prod.mk.injEq] at h
    obtain ⟨rfl, rfl⟩ := h
    simp only [wrote, consumes, Bool.false_eq_true, if_false, List.append_nil]
    have hos := osTakes_os s k
    have hp := osTakes_pipe s k
    have hin : InInv (NamedPipe.osTakes s k) rs m :=
      inInv_congr hi.inp (by rw [hp]) hos.2.1 (by rw [hp]) hos.2.2 (by simp [pendingRead, hp])
    have hwf : Wf rd wr (NamedPipe.osTakes s k) := by
      constructor <;> rw [hp]
      · exact hi.wf.readMode
      · exact hi.wf.writeMode
      · exact hi.wf.closed
      · exact hi.wf.conn
      · exact hi.wf.inp
      · exact hi.wf.out
    refine ⟨hwf, fun w hw => hi.sized w (by rw [← hp]; exact hw), hin, ?_, ?_⟩
    · intro ho; rw [hp] at ho
      exact osTakes_out s k ws (hi.out ho)
    · by_cases ho : s.pipe.opened = true
      · exact (osTakes_out s k ws (hi.out ho)).weak
      · refine osTakes_weak s k ws hi.outClosed ?_
        intro w hw
        rw [(hi.wf.closed (by simpa using ho)).2.2] at hw; cases hw

theorem run_inv {rd wr : Bool} {m : Nat} : ∀ (ops : List Op) (s : State) (ws rs : List Nat) (s' : State)
    (rets : List (List Nat)), Inv rd wr s ws rs m → SizesUpTo m ops → run s ops = some (s', rets) →
    Inv rd wr s' (ws ++ written ops) (rs ++ readOut ops rets) m := by
  intro ops
  induction ops with
  | nil =>
    intro s ws rs s' rets hi _ h
    simp only [run, Option.some.injEq, Prod.mk.injEq] at h
    obtain ⟨rfl, rfl⟩ := h
    simpa [written, readOut] using hi
  | cons op ops ih =>
    intro s ws rs s' rets hi hsz h
    rw [run] at h
    cases e : step s op with
    | none => rw [e] at h; simp at h
    | some x =>
      obtain ⟨s1, r⟩ := x
      rw [e] at h
      simp only at h
      cases e2 : run s1 ops with
      | none => rw [e2] at h; simp at h
      | some y =>
        obtain ⟨s2, rs2⟩ := y
        rw [e2] at h
        simp only [Option.some.injEq, Prod.mk.injEq] at h
        obtain ⟨rfl, rfl⟩ := h
        have h1 := step_inv hi op s1 r (fun n hn => hsz n (by simp [hn])) e
        have h2 := ih s1 _ _ s2 rs2 h1 (fun n hn => hsz n (List.mem_cons_of_mem _ hn)) e2
        have hw : written (op :: ops) = wrote op ++ written ops := by
          cases op <;> rfl
        rw [hw, readOut, ← List.append_assoc, ← List.append_assoc]
        exact h2

theorem opened_inv (rd wr c : Bool) (m : Nat) (hm : 64 * 1024 ≤ m) :
    Inv rd wr (opened rd wr c) [] [] m := by
  cases c
  · refine ⟨⟨rfl, rfl, fun h => (by cases h), fun _ => ⟨rfl, rfl⟩, fun _ h => (by cases h),
      fun _ h => (by cases h)⟩, fun w h => (by cases h), ⟨rfl, hm, ?_, fun e h => (by cases h)⟩, fun _ => ⟨rfl, rfl⟩,
      ⟨rfl, List.prefix_refl _⟩⟩
    simp [opened, pendingRead]
  · cases rd <;> cases wr
    all_goals
      refine ⟨⟨rfl, rfl, fun h => (by cases h), fun h => (by cases h), fun _ _ => rfl,
        fun _ _ => rfl⟩, fun w h => ?_, ⟨rfl, hm, ?_, fun e h => (by cases h)⟩, fun _ => ⟨rfl, rfl⟩,
        ⟨rfl, List.prefix_refl _⟩⟩
    all_goals first
      | (simp [opened, pendingRead, startPipeWorkers, newWorker]; done)
      | (simp [opened, startPipeWorkers, newWorker] at h; done)
      | (simp [opened, startPipeWorkers, newWorker] at h; subst h; intro hh; cases hh)

end Winpty.NamedPipe

namespace Winpty.NamedPipe
open Winpty.Spec.Pipe

theorem exists_bound : ∀ ops : List Op, ∃ m, 64 * 1024 ≤ m ∧ SizesUpTo m ops := by
  intro ops
  induction ops with
  | nil => exact ⟨64 * 1024, Nat.le_refl _, fun n h => by cases h⟩
  | cons op ops ih =>
    obtain ⟨m, h1, h2⟩ := ih
    have ext : ∀ k, (∀ n, op = .setReadBufferSize n → n ≤ k) → ∃ m, 64 * 1024 ≤ m ∧ SizesUpTo m (op :: ops) := by
      intro k hk
      refine ⟨max m k, by omega, fun n hn => ?_⟩
      rw [List.mem_cons] at hn
      rcases hn with hn | hn
      · have := hk n hn.symm; omega
      · have := h2 n hn; omega
    cases op with
    | setReadBufferSize k => exact ext k (fun n hn => by cases hn; exact Nat.le_refl _)
    | _ => exact ext 0 (fun n hn => by cases hn)

theorem fullWrites_of {a : Ans} {as : List Ans} (h : FullWrites (a :: as)) :
    FullWrites as ∧ ∀ n d, a = .done n d → ioSize ≤ n := by
  cases a with
  | done n d => exact ⟨h.2, fun n' d' e => by cases e; exact h.1⟩
  | _ => exact ⟨h, fun n' d' e => by cases e⟩

theorem serviceLoop_output_total (ws : List Nat) : ∀ (ans : List Ans) (s : State) (w : Worker) (p : Bool),
    s.pipe.output = some w → w.pending = false → OutInv s ws → FullWrites ans →
    ∃ x, serviceLoop .output s p ans = some x := by
  intro ans
  induction ans with
  | nil =>
    intro s w p hw hp hi _
    have hit := iterate_output_after s w none ws hw hp hi
    rw [serviceLoop]
    cases hs : iterate .output s none with
    | assertFailed => rw [hs] at hit; obtain ⟨n, d, h, _⟩ := hit; cases h
    | again s1 => exact ⟨_, rfl⟩
    | stop s1 e => exact ⟨_, rfl⟩
  | cons a rest ih =>
    intro s w p hw hp hi hf
    have hit := iterate_output_after s w (some a) ws hw hp hi
    obtain ⟨f1, f2⟩ := fullWrites_of hf
    rw [serviceLoop]
    cases hs : iterate .output s (some a) with
    | assertFailed =>
      rw [hs] at hit; obtain ⟨n, d, h, hlt⟩ := hit
      have := f2 n d (Option.some.inj h)
      omega
    | again s1 =>
      rw [hs] at hit
      obtain ⟨_, _, h3, _, w', h5, h6⟩ := hit
      exact ih s1 w' true h5 h6 h3 f1
    | stop s1 e => exact ⟨_, rfl⟩

theorem service_output_total (s : State) (ans : List Ans) (ws : List Nat) (hi : OutInv s ws)
    (hf : FullWrites ans) : ∃ x, service .output s ans = some x := by
  unfold service
  cases hw : s.pipe.output with
  | none => simp [Pipe.worker, hw]
  | some w =>
    simp only [Pipe.worker, hw]
    by_cases hp : w.pending = true
    · rw [if_pos hp]
      match ans, hf with
      | [], _ => exact ⟨_, rfl⟩
      | .pending :: _, _ => exact ⟨_, rfl⟩
      | .error :: _, _ => exact ⟨_, rfl⟩
      | .done n d :: rest, hf =>
        have hfin := finish_output s w n d ws hw hp hi
        cases hfe : finish .output s w n d with
        | none =>
          rw [hfe] at hfin
          have h2 := hi.2
          unfold OutOk at h2
          rw [hw] at h2
          simp only [hp, if_true] at h2
          have := h2.2.1
          have hn : ioSize ≤ n := hf.1
          simp only at hfin
          omega
        | some s1 =>
          rw [hfe] at hfin
          obtain ⟨h1, h2, h3, h4, h5⟩ := hfin
          simp only [hfe]
          exact serviceLoop_output_total ws rest s1 _ true h5 rfl h3 hf.2
    · rw [if_neg hp]
      exact serviceLoop_output_total ws ans s w false hw (by simpa using hp) hi hf

theorem serviceWorkers_total {rd wr : Bool} {s : State} {ws rs : List Nat} {m : Nat}
    (hi : Inv rd wr s ws rs m) (hopen : s.pipe.opened = true) (jc : Bool) (waits : List WaitOn)
    (ra wa : List Ans) (k : Nat) (hf : FullWrites wa) :
    ∃ x, serviceWorkers s jc waits ra wa k = some x := by
  obtain ⟨s1, r, e1, o1, _⟩ := service_input s ra rs m hi.inp hi.sized (by
    intro hs
    have hnc : s.pipe.connecting = false := by
      cases hcc : s.pipe.connecting with
      | false => rfl
      | true => rw [(hi.wf.conn hcc).1] at hs; simp at hs
    refine ⟨hnc, hopen, ?_⟩
    rw [hi.wf.readMode, ← hi.wf.inp hopen hnc]; exact hs)
  obtain ⟨x, hx⟩ := service_output_total s1 wa ws (outInv_same o1 (hi.out hopen)) hf
  unfold serviceWorkers
  rw [e1]
  simp only [hx]
  split <;> exact ⟨_, rfl⟩

theorem step_total {rd wr : Bool} {s : State} {ws rs : List Nat} {m : Nat}
    (hi : Inv rd wr s ws rs m) (op : Op) (hp : Proper rd wr op) : ∃ x, step s op = some x := by
  cases op with
  | write d => exact ⟨_, by simp only [step]; rw [if_pos (by rw [hi.wf.writeMode]; exact hp)]⟩
  | peek n => exact ⟨_, by simp only [step]; rw [if_pos (by rw [hi.wf.readMode]; exact hp)]⟩
  | read n => exact ⟨_, by simp only [step]; rw [if_pos (by rw [hi.wf.readMode]; exact hp)]⟩
  | readToString n => exact ⟨_, by simp only [step]; rw [if_pos (by rw [hi.wf.readMode]; exact hp)]⟩
  | readAllToString => exact ⟨_, by simp only [step]; rw [if_pos (by rw [hi.wf.readMode]; exact hp)]⟩
  | setReadBufferSize n => exact ⟨_, by simp only [step]; rw [if_pos (by rw [hi.wf.readMode]; exact hp)]⟩
  | closePipe k => exact ⟨_, rfl⟩
  | osTakes k => exact ⟨_, rfl⟩
  | serviceIo conn ra wa k =>
    have : ∃ x, NamedPipe.serviceIo s conn ra wa k = some x := by
      unfold NamedPipe.serviceIo
      by_cases ho : s.pipe.opened = true
      · rw [if_neg (by simp [Pipe.isClosed, ho])]
        by_cases hc : s.pipe.connecting = true
        · rw [if_pos hc]
          cases conn with
          | failed => exact absurd rfl hp.1
          | incomplete => exact serviceWorkers_total hi ho _ _ ra wa k hp.2
          | connected => exact serviceWorkers_total (start_inv hi ho hc) ho _ _ ra wa k hp.2
        · rw [if_neg hc]
          exact serviceWorkers_total hi ho _ _ ra wa k hp.2
      · rw [if_pos (by simpa [Pipe.isClosed] using ho)]
        exact ⟨_, rfl⟩
    obtain ⟨⟨s', b, w⟩, hx⟩ := this
    exact ⟨(s', []), by simp only [step, hx]⟩

theorem run_append (s : State) : ∀ (ops ops' : List Op), run s (ops ++ ops') =
    match run s ops with
    | none => none
    | some (s1, r1) =>
      match run s1 ops' with
      | none => none
      | some (s2, r2) => some (s2, r1 ++ r2) := by
  intro ops
  induction ops generalizing s with
  | nil => intro ops'; simp only [List.nil_append, run]; split <;> simp_all
  | cons op ops ih =>
    intro ops'
    simp only [List.cons_append, run]
    cases step s op with
    | none => rfl
    | some x =>
      obtain ⟨s1, r1⟩ := x
      simp only [ih s1 ops']
      cases run s1 ops with
      | none => rfl
      | some y =>
        obtain ⟨s2, r2⟩ := y
        simp only
        cases run s2 ops' <;> rfl

end Winpty.NamedPipe

namespace Winpty.Props
open Winpty.NamedPipe Winpty.Spec.Pipe

/-- C28, output: after any history of calls and system answers, what was handed to the system
followed by what is still queued is exactly what was written; what the system has passed on towards
the peer is a prefix of it. -/
theorem C28_written_in_order (reading writing connected : Bool) (ops : List Op) (s : State)
    (rets : List (List Nat)) (h : run (opened reading writing connected) ops = some (s, rets)) :
    s.os.given ++ s.pipe.outQueue = written ops ∧ s.os.wire <+: s.os.given := by
  obtain ⟨m, hm, hs⟩ := exists_bound ops
  have := run_inv ops _ [] [] s rets (opened_inv reading writing connected m hm) hs h
  have h2 := this.outClosed
  rw [List.nil_append] at h2
  exact h2

/-- C28, output: while the pipe is open and `bytesToSend` reports 0, everything that was written has
been passed on by the system.  (The agent closes an output pipe only in this situation: C30.) -/
theorem C28_nothing_left (reading connected : Bool) (ops : List Op) (s : State)
    (rets : List (List Nat)) (h : run (opened reading true connected) ops = some (s, rets))
    (ho : s.pipe.isClosed = false) (hz : bytesToSend s.pipe = some 0) :
    s.os.wire = written ops := by
  obtain ⟨m, hm, hs⟩ := exists_bound ops
  have hi := run_inv ops _ [] [] s rets (opened_inv reading true connected m hm) hs h
  obtain ⟨h1, h2⟩ := hi.out (by simpa [Pipe.isClosed] using ho)
  simp only [List.nil_append] at h1
  simp only [bytesToSend, hi.wf.writeMode, if_true, Option.some.injEq] at hz
  have hq : s.pipe.outQueue = [] := List.length_eq_zero_iff.1 (by omega)
  have hw : s.os.wire = s.os.given := by
    unfold OutOk at h2
    cases hw : s.pipe.output with
    | none => rw [hw] at h2; exact h2
    | some w =>
      rw [hw] at h2 hz
      by_cases hp : w.pending = true
      · simp only [hp, if_true] at h2 hz
        obtain ⟨_, _, h5, b, h6, h7⟩ := h2
        have : w.currentIoSize = 0 := by omega
        rw [h6, h7, this, show s.os.taken = 0 by omega]
      · simpa [hp] using h2
  rw [hw, ← h1, hq, List.append_nil]

/-- C28, input: after any history, what the program has read followed by what is still buffered is
exactly what the system delivered. -/
theorem C28_read_in_order (reading writing connected : Bool) (ops : List Op) (s : State)
    (rets : List (List Nat)) (h : run (opened reading writing connected) ops = some (s, rets)) :
    readOut ops rets ++ s.pipe.inQueue = s.os.received := by
  obtain ⟨m, hm, hs⟩ := exists_bound ops
  have := run_inv ops _ [] [] s rets (opened_inv reading writing connected m hm) hs h
  simpa using this.inp.stream

/-- C28, input: `peek` and `read` return the next bytes of the stream, as many as asked for if there
are that many. -/
theorem C28_peek_and_read (writing connected : Bool) (ops : List Op) (s : State)
    (rets : List (List Nat)) (n : Nat)
    (h : run (opened true writing connected) ops = some (s, rets)) :
    ∃ s1 s2, step s (.peek n) = some (s1, (s.os.received.drop (readOut ops rets).length).take n) ∧
      step s (.read n) = some (s2, (s.os.received.drop (readOut ops rets).length).take n) ∧
      s1 = s ∧ s2.pipe.inQueue = s.os.received.drop ((readOut ops rets).length + n) := by
  obtain ⟨m, hm, hs⟩ := exists_bound ops
  have hi := run_inv ops _ [] [] s rets (opened_inv true writing connected m hm) hs h
  have hst : readOut ops rets ++ s.pipe.inQueue = s.os.received := by simpa using hi.inp.stream
  have hd : s.os.received.drop (readOut ops rets).length = s.pipe.inQueue := by
    rw [← hst]; simp
  have hrd := hi.wf.readMode
  have htk : s.pipe.inQueue.take (min n s.pipe.inQueue.length) = s.pipe.inQueue.take n := by
    rcases Nat.le_total n s.pipe.inQueue.length with h | h
    · rw [Nat.min_eq_left h]
    · rw [Nat.min_eq_right h, List.take_of_length_le h, List.take_of_length_le (Nat.le_refl _)]
  have hdr : s.pipe.inQueue.drop (min n s.pipe.inQueue.length) = s.pipe.inQueue.drop n := by
    rcases Nat.le_total n s.pipe.inQueue.length with h | h
    · rw [Nat.min_eq_left h]
    · rw [Nat.min_eq_right h, List.drop_of_length_le h, List.drop_of_length_le (Nat.le_refl _)]
  refine ⟨s, { s with pipe := { s.pipe with inQueue := s.pipe.inQueue.drop n } }, ?_, ?_, rfl, ?_⟩
  · simp only [step, hrd, if_true, hd, htk]
  · simp only [step, hrd, if_true, hd, htk, hdr]
  · rw [← List.drop_drop, hd]

/-- C28: no pipe gets stuck.  After `serviceIo` the pipe is closed, or: bytes still queued mean a
write is in progress; room in the read buffer means a read is in progress; and the connection attempt
and every operation in progress are among the events the event loop waits for. -/
theorem C28_never_stuck (reading writing connected : Bool) (ops : List Op) (s s' : State)
    (rets : List (List Nat)) (conn : ConnectAns) (ra wa : List Ans) (k : Nat) (did : Bool)
    (waits : List WaitOn) (h : run (opened reading writing connected) ops = some (s, rets))
    (hs : serviceIo s conn ra wa k = some (s', did, waits)) :
    s'.pipe.isClosed = true ∨
    ((s'.pipe.isConnecting = true → WaitOn.connect ∈ waits) ∧
     (s'.pipe.isConnected = true → writing = true → s'.pipe.outQueue ≠ [] →
        (∃ w, s'.pipe.output = some w ∧ w.pending = true) ∧ WaitOn.output ∈ waits) ∧
     (s'.pipe.isConnected = true → reading = true →
        s'.pipe.inQueue.length < s'.pipe.readBufferSize →
        (∃ w, s'.pipe.input = some w ∧ w.pending = true) ∧ WaitOn.input ∈ waits) ∧
     (∀ w, s'.pipe.output = some w → w.pending = true → WaitOn.output ∈ waits) ∧
     (∀ w, s'.pipe.input = some w → w.pending = true → WaitOn.input ∈ waits)) := by
  obtain ⟨m, hm, hz⟩ := exists_bound ops
  have hi := run_inv ops _ [] [] s rets (opened_inv reading writing connected m hm) hz h
  obtain ⟨hi', hb⟩ := serviceIo_inv hi conn ra wa k s' did waits hs
  rcases hb with hb | ⟨ho, hb⟩
  · left; simp [Pipe.isClosed, hb]
  · right
    refine ⟨hb.connect, ?_, ?_, hb.waitOut, hb.waitIn⟩
    · intro hcn hw hq
      have hnc : s'.pipe.connecting = false := by
        simpa [Pipe.isConnected, Pipe.isClosed, Pipe.isConnecting, ho] using hcn
      obtain ⟨w, h1, h2⟩ := hb.write (by rw [hi'.wf.out ho hnc]; exact hw) hq
      exact ⟨⟨w, h1, h2⟩, hb.waitOut w h1 h2⟩
    · intro hcn hw hq
      have hnc : s'.pipe.connecting = false := by
        simpa [Pipe.isConnected, Pipe.isClosed, Pipe.isConnecting, ho] using hcn
      obtain ⟨w, h1, h2⟩ := hb.read (by rw [hi'.wf.inp ho hnc]; exact hw) hq
      exact ⟨⟨w, h1, h2⟩, hb.waitIn w h1 h2⟩

/-- C28: the assertions inside the pipe code never fire, unless the pipe is used in a direction it
was not opened for, the connection is refused or the system reports a short write. -/
theorem C28_no_assertion (reading writing connected : Bool) : ∀ (ops : List Op),
    (∀ op ∈ ops, Proper reading writing op) → ∃ x, run (opened reading writing connected) ops = some x := by
  intro ops
  obtain ⟨m, hm, hz⟩ := exists_bound ops
  have key : ∀ (ops : List Op) (s : State) (ws rs : List Nat), Inv reading writing s ws rs m →
      SizesUpTo m ops → (∀ op ∈ ops, Proper reading writing op) → ∃ x, run s ops = some x := by
    intro ops
    induction ops with
    | nil => intro s ws rs _ _ _; exact ⟨_, rfl⟩
    | cons op ops ih =>
      intro s ws rs hi hsz hp
      obtain ⟨⟨s1, r⟩, e⟩ := step_total hi op (hp op (List.mem_cons_self ..))
      have h1 := step_inv hi op s1 r (fun n hn => hsz n (by simp [hn])) e
      obtain ⟨⟨s2, r2⟩, e2⟩ := ih s1 _ _ h1 (fun n hn => hsz n (List.mem_cons_of_mem _ hn))
        (fun o ho => hp o (List.mem_cons_of_mem _ ho))
      exact ⟨(s2, r :: r2), by rw [run, e]; simp only [e2]⟩
  exact key ops _ [] [] (opened_inv reading writing connected m hm) hz

/-- C29: every read issued to the system was issued while less than the configured amount was
buffered, and asked for 64 KiB. -/
theorem C29_reads_only_below_limit (reading writing connected : Bool) (ops : List Op) (s : State)
    (rets : List (List Nat)) (h : run (opened reading writing connected) ops = some (s, rets)) :
    ∀ buffered limit size, (buffered, limit, size) ∈ s.os.reads → buffered < limit ∧ size = 65536 := by
  obtain ⟨m, hm, hz⟩ := exists_bound ops
  have hi := run_inv ops _ [] [] s rets (opened_inv reading writing connected m hm) hz h
  intro b l z hmem
  have := hi.inp.reads _ hmem
  exact ⟨this.1, this.2.1⟩

/-- C29: the unread data held by a pipe, together with what a read in progress may still add, is less
than the largest configured read-buffer size plus one read. -/
theorem C29_bounded (reading writing connected : Bool) (ops : List Op) (s : State)
    (rets : List (List Nat)) (limit : Nat)
    (h : run (opened reading writing connected) ops = some (s, rets))
    (hl : 65536 ≤ limit) (hsizes : SizesUpTo limit ops) :
    s.pipe.inQueue.length < limit + 65536 ∧
    ∀ w, s.pipe.input = some w → w.pending = true →
      s.pipe.inQueue.length + w.currentIoSize < limit + 65536 := by
  have hi := run_inv ops _ [] [] s rets (opened_inv reading writing connected limit hl) hsizes h
  have hb := hi.inp.bound
  refine ⟨by omega, fun w hw hp => ?_⟩
  simp only [pendingRead, hw, hp, if_true] at hb
  exact hb

/-- A duplex pipe: data is written before the client has connected, the connection completes, a write
pends and is cut short by cancellation, and two reads arrive, one of them pending first. -/
def demoPipe : List Op :=
  [.write [1, 2, 3], .serviceIo .incomplete [] [] 0, .write [4],
   .serviceIo .connected [.done 0 [10, 11], .pending] [.pending] 0,
   .osTakes 2, .read 1, .write [5], .peek 5,
   .serviceIo .connected [.done 0 [12]] [.pending] 0, .readAllToString,
   .serviceIo .connected [] [.done 65536 [], .done 65536 []] 0, .write [6],
   .serviceIo .connected [.error] [.pending] 1]

/-- Non-vacuity: the history runs, the system passed on the first five bytes and one more, the rest
is accounted for. -/
example : (run (opened true true false) demoPipe).map
    (fun x => (x.1.os.wire, x.1.os.given, x.1.pipe.outQueue, x.1.pipe.inQueue, x.1.os.received, x.2)) =
    some ([1, 2, 3, 4, 5, 6], [1, 2, 3, 4, 5, 6], [], [], [10, 11, 12],
      [[], [], [], [], [], [10], [], [11], [], [11, 12], [], [], []]) := by
  rfl

example : ∀ op ∈ demoPipe, Proper true true op := by
  intro op h
  simp only [demoPipe, List.mem_cons, List.not_mem_nil, or_false] at h
  rcases h with rfl | rfl | rfl | rfl | rfl | rfl | rfl | rfl | rfl | rfl | rfl | rfl | rfl <;>
    simp [Proper, FullWrites]

example : SizesUpTo 65536 demoPipe ∧ written demoPipe = [1, 2, 3, 4, 5, 6] :=
  ⟨fun n h => by simp [demoPipe] at h, rfl⟩

/-- Non-vacuity of `C28_nothing_left`: an open pipe with everything sent. -/
example : (run (opened true true false) (demoPipe.take 11)).map
    (fun x => (x.1.pipe.isClosed, bytesToSend x.1.pipe, x.1.os.wire)) =
    some (false, some 0, [1, 2, 3, 4, 5]) := by
  decide +kernel

end Winpty.Props
