import Verif.Model.ClientThreads

/-!
# Lemmas for C81: a call goes on from where it stood when one more answer comes
-/
namespace Winpty.ClientThreads

open Winpty.Client
open Winpty.Buffer (Field)

/-- How a computation ends, without the environment. -/
inductive Shape (α : Type) where
  | ok (a : α)
  | throw (e : Exn)
  | abort
  | wait

def Shape.mk {α : Type} (w : World) : Shape α → R α
  | .ok a => .ok a w
  | .throw e => .throw e w
  | .abort => .abort w
  | .wait => .wait w

/-- With these answers the computation does the same whatever answers follow; if it waits, it has used them
all, and with one more it goes on from there. -/
def GoodAt {α : Type} (f : World → R α) (ios : List Io) : Prop :=
  ∃ (sh : Shape α) (rest : List Io) (es : List Event),
    (∃ used, ios = used ++ rest) ∧
    (∀ d l, f ⟨ios, d, l⟩ = sh.mk ⟨rest, d, l ++ es⟩) ∧
    (sh ≠ .wait → ∀ more d l, f ⟨ios ++ more, d, l⟩ = sh.mk ⟨rest ++ more, d, l ++ es⟩) ∧
    (sh = .wait → rest = [] ∧ ∀ a, ∃ (sh2 : Shape α) (es2 : List Event), ∀ d l,
      f ⟨ios ++ [a], d, l⟩ = sh2.mk ⟨[], d, l ++ es ++ es2⟩)

def Good {α : Type} (f : World → R α) : Prop := ∀ ios, GoodAt f ios

theorem good_nil {α : Type} {f : World → R α} (h : GoodAt f []) :
    ∃ (sh : Shape α) (es : List Event), ∀ d l, f ⟨[], d, l⟩ = sh.mk ⟨[], d, l ++ es⟩ := by
  obtain ⟨sh, rest, es, ⟨used, hu⟩, h1, _, _⟩ := h
  have : rest = [] := by
    have := congrArg List.length hu
    simp at this
    exact List.eq_nil_of_length_eq_zero (by omega)
  subst this
  exact ⟨sh, es, h1⟩

theorem goodAt_bind {α β : Type} {f : World → R α} {k : α → World → R β} {ios : List Io} (hf : GoodAt f ios)
    (hk : ∀ a, Good (k a)) : GoodAt (fun w => (f w).bind k) ios := by
  obtain ⟨sh, rest, es, ⟨used, hu⟩, h1, h2, h3⟩ := hf
  cases sh with
  | throw e =>
    refine ⟨.throw e, rest, es, ⟨used, hu⟩, ?_, ?_, by intro h; cases h⟩
    · intro d l; simp only [h1]; rfl
    · intro _ more d l; simp only [h2 (by simp)]; rfl
  | abort =>
    refine ⟨.abort, rest, es, ⟨used, hu⟩, ?_, ?_, by intro h; cases h⟩
    · intro d l; simp only [h1]; rfl
    · intro _ more d l; simp only [h2 (by simp)]; rfl
  | wait =>
    obtain ⟨hr, h3⟩ := h3 rfl
    refine ⟨.wait, rest, es, ⟨used, hu⟩, ?_, by intro h; exact absurd rfl h, ?_⟩
    · intro d l; simp only [h1]; rfl
    · intro _
      refine ⟨hr, fun a => ?_⟩
      obtain ⟨sh2, es2, h4⟩ := h3 a
      cases sh2 with
      | ok b =>
        obtain ⟨sh3, es3, h5⟩ := good_nil (hk b [])
        refine ⟨sh3, es2 ++ es3, fun d l => ?_⟩
        simp only [h4]
        show k b _ = _
        rw [h5]; simp
      | throw e => exact ⟨.throw e, es2, fun d l => by simp only [h4]; rfl⟩
      | abort => exact ⟨.abort, es2, fun d l => by simp only [h4]; rfl⟩
      | wait => exact ⟨.wait, es2, fun d l => by simp only [h4]; rfl⟩
  | ok a =>
    obtain ⟨sh', rest', es', ⟨used', hu'⟩, k1, k2, k3⟩ := hk a rest
    have h2 := h2 (by simp)
    refine ⟨sh', rest', es ++ es', ⟨used ++ used', by rw [hu, hu']; simp⟩, ?_, ?_, ?_⟩
    · intro d l
      simp only [h1]
      show k a _ = _
      rw [k1]; simp
    · intro hw more d l
      simp only [h2]
      show k a _ = _
      rw [k2 hw]; simp
    · intro hw
      obtain ⟨hr, k3⟩ := k3 hw
      refine ⟨hr, fun x => ?_⟩
      obtain ⟨sh2, es2, k4⟩ := k3 x
      refine ⟨sh2, es2, fun d l => ?_⟩
      simp only [h2]
      show k a _ = _
      rw [k4]; simp

theorem good_bind {α β : Type} {f : World → R α} {k : α → World → R β} (hf : Good f) (hk : ∀ a, Good (k a)) :
    Good fun w => (f w).bind k := fun ios => goodAt_bind (hf ios) hk

/-- A computation that does not call the system. -/
theorem good_pure {α : Type} (sh : Shape α) (hs : sh ≠ .wait) (es : List Event) :
    Good fun w => sh.mk (w.add es) := by
  intro ios
  exact ⟨sh, ios, es, ⟨[], rfl⟩, fun _ _ => rfl, fun _ _ _ _ => rfl, fun h => absurd h hs⟩

theorem good_const {α : Type} (sh : Shape α) (hs : sh ≠ .wait) : Good fun w => sh.mk w := by
  intro ios
  refine ⟨sh, ios, [], ⟨[], rfl⟩, ?_, ?_, fun h => absurd h hs⟩
  · intro d l; simp
  · intro _ more d l; simp

theorem overlapped_good (e : Event) : Good fun w => overlapped w e := by
  intro ios
  cases ios with
  | nil =>
    refine ⟨.wait, [], [e], ⟨[], rfl⟩, fun _ _ => rfl, fun h => absurd rfl h, fun _ => ⟨rfl, fun a => ?_⟩⟩
    cases a with
    | now d => exact ⟨.ok d, [], fun _ _ => by simp [overlapped, Shape.mk, World.add]⟩
    | pending x =>
      cases x with
      | io d => exact ⟨.ok d, [.pending, .reaped], fun _ _ => by
          simp [overlapped, handlePendingIo, Shape.mk, World.add]⟩
      | agentDied => exact ⟨.throw _, [.pending, .cancel, .reaped], fun _ _ => by
          simp [overlapped, handlePendingIo, Shape.mk, World.add]; rfl⟩
      | timeout => exact ⟨.throw _, [.pending, .cancel, .reaped], fun _ _ => by
          simp [overlapped, handlePendingIo, Shape.mk, World.add]; rfl⟩
      | failed c => exact ⟨.throw _, [.pending, .cancel, .reaped], fun _ _ => by
          simp [overlapped, handlePendingIo, Shape.mk, World.add]; rfl⟩
      | other => exact ⟨.abort, [.pending], fun _ _ => by
          simp [overlapped, handlePendingIo, Shape.mk, World.add]⟩
  | cons a ios =>
    cases a with
    | now d =>
      exact ⟨.ok d, ios, [e], ⟨[.now d], rfl⟩, fun _ _ => rfl, fun _ _ _ _ => rfl, by intro h; cases h⟩
    | pending x =>
      cases x with
      | io d =>
        refine ⟨.ok d, ios, [e, .pending, .reaped], ⟨[_], rfl⟩, ?_, ?_, by intro h; cases h⟩ <;> intros <;>
          simp [overlapped, handlePendingIo, Shape.mk, World.add]
      | agentDied =>
        refine ⟨.throw (.lib 6 "agent died"), ios, [e, .pending, .cancel, .reaped], ⟨[_], rfl⟩, ?_, ?_,
          by intro h; cases h⟩ <;> intros <;> simp [overlapped, handlePendingIo, Shape.mk, World.add]
      | timeout =>
        refine ⟨.throw (.lib 7 "agent timed out"), ios, [e, .pending, .cancel, .reaped], ⟨[_], rfl⟩, ?_, ?_,
          by intro h; cases h⟩ <;> intros <;> simp [overlapped, handlePendingIo, Shape.mk, World.add]
      | failed c =>
        refine ⟨.throw (windowsError "WaitForMultipleObjects failed" c), ios, [e, .pending, .cancel, .reaped],
          ⟨[_], rfl⟩, ?_, ?_, by intro h; cases h⟩ <;> intros <;>
          simp [overlapped, handlePendingIo, Shape.mk, World.add]
      | other =>
        refine ⟨.abort, ios, [e, .pending], ⟨[_], rfl⟩, ?_, ?_, by intro h; cases h⟩ <;> intros <;>
          simp [overlapped, handlePendingIo, Shape.mk, World.add]

theorem writeData_good (bytes : List Nat) : Good fun w => writeData w bytes := by
  refine good_bind (overlapped_good _) fun d => ?_
  cases d with
  | fail code => exact good_const (.throw _) (by simp)
  | ok written data =>
    by_cases h : written = bytes.length
    · simp only [if_pos h]; exact good_pure (.ok ()) (by simp) [.wrote written]
    · simp only [if_neg h]; exact good_pure .abort (by simp) [.wrote written]

theorem writePacket_good (fs : List Field) : Good fun w => writePacket w fs := by
  unfold writePacket
  cases Buffer.sealPacket (Buffer.putFields Buffer.newPacket fs) with
  | none => exact good_const .abort (by simp)
  | some bytes => exact writeData_good bytes

theorem readData_good (n : Nat) : Good fun w => readData w n := by
  refine good_bind (overlapped_good _) fun d => ?_
  cases d with
  | fail code => exact good_const (.throw _) (by simp)
  | ok written data =>
    by_cases h : data.length ≤ n
    · simp only [if_pos h]; exact good_pure (.ok data) (by simp) [.got data]
    · simp only [if_neg h]; exact good_const .abort (by simp)

/-- An answer given to a read. -/
theorem readData_one (n : Nat) (a : Io) : ∃ (sh : Shape (List Nat)) (es : List Event), sh ≠ .wait ∧
    ∀ more d l, readData ⟨a :: more, d, l⟩ n = sh.mk ⟨more, d, l ++ [.read n] ++ es⟩ := by
  have h1 : ∀ more d l, ∃ sh es, sh ≠ Shape.wait ∧
      readData ⟨a :: more, d, l⟩ n = sh.mk ⟨more, d, l ++ [.read n] ++ es⟩ := by
    intro more d l
    cases a with
    | now x =>
      cases x with
      | fail c => exact ⟨.throw _, [], by simp, by simp [readData, overlapped, R.bind, Shape.mk, World.add]; rfl⟩
      | ok c data =>
        by_cases h : data.length ≤ n
        · exact ⟨.ok data, [.got data], by simp, by simp [readData, overlapped, R.bind, Shape.mk, World.add, h]⟩
        · exact ⟨.abort, [], by simp, by simp [readData, overlapped, R.bind, Shape.mk, World.add, h]⟩
    | pending x =>
      cases x with
      | io x =>
        cases x with
        | fail c => exact ⟨.throw _, [.pending, .reaped], by simp, by
            simp [readData, overlapped, handlePendingIo, R.bind, Shape.mk, World.add]; rfl⟩
        | ok c data =>
          by_cases h : data.length ≤ n
          · exact ⟨.ok data, [.pending, .reaped, .got data], by simp, by
              simp [readData, overlapped, handlePendingIo, R.bind, Shape.mk, World.add, h]⟩
          · exact ⟨.abort, [.pending, .reaped], by simp, by
              simp [readData, overlapped, handlePendingIo, R.bind, Shape.mk, World.add, h]⟩
      | agentDied => exact ⟨.throw _, [.pending, .cancel, .reaped], by simp, by
            simp [readData, overlapped, handlePendingIo, R.bind, Shape.mk, World.add]; rfl⟩
      | timeout => exact ⟨.throw _, [.pending, .cancel, .reaped], by simp, by
            simp [readData, overlapped, handlePendingIo, R.bind, Shape.mk, World.add]; rfl⟩
      | failed c => exact ⟨.throw _, [.pending, .cancel, .reaped], by simp, by
            simp [readData, overlapped, handlePendingIo, R.bind, Shape.mk, World.add]; rfl⟩
      | other => exact ⟨.abort, [.pending], by simp, by
            simp [readData, overlapped, handlePendingIo, R.bind, Shape.mk, World.add]⟩
  obtain ⟨sh, rest, es, ⟨used, hu⟩, g1, g2, _⟩ := readData_good n [a]
  obtain ⟨sh0, es0, hs0, h0⟩ := h1 [] [] []
  have hg := g1 [] []
  simp only [h0] at hg
  have hsh : sh = sh0 ∧ rest = [] ∧ es = [.read n] ++ es0 := by
    cases sh <;> cases sh0 <;> simp_all [Shape.mk]
  obtain ⟨rfl, rfl, rfl⟩ := hsh
  refine ⟨sh, es0, hs0, fun more d l => ?_⟩
  have := g2 hs0 more d l
  simpa using this

theorem readAll_zero (w : World) : readAll w 0 = .ok [] w := rfl

theorem readAll_pos (w : World) (n : Nat) (hn : n > 0) :
    readAll w n = (readData w n).bind fun chunk w' =>
      (readLoop w.ios.length w' (n - chunk.length)).bind fun rest w' => .ok (chunk ++ rest) w' := by
  rw [readAll, readLoop, if_pos hn]

theorem readAll_wait (d : List (Except Nat Int)) (l : List Event) (n : Nat) (hn : n > 0) :
    readAll ⟨[], d, l⟩ n = .wait ⟨[], d, l ++ [.read n]⟩ := by
  rw [readAll_pos _ _ hn]; rfl

theorem readAll_good (n : Nat) : Good fun w => readAll w n := by
  intro ios
  induction ios generalizing n with
  | nil =>
    by_cases hn : n > 0
    · refine ⟨.wait, [], [.read n], ⟨[], rfl⟩, fun d l => readAll_wait d l n hn, fun h => absurd rfl h,
        fun _ => ⟨rfl, fun a => ?_⟩⟩
      obtain ⟨sh, es, hs, h⟩ := readData_one n a
      cases sh with
      | wait => exact absurd rfl hs
      | throw e =>
        refine ⟨.throw e, es, fun d l => ?_⟩
        simp only []; rw [List.nil_append, readAll_pos _ _ hn, h]; rfl
      | abort =>
        refine ⟨.abort, es, fun d l => ?_⟩
        simp only []; rw [List.nil_append, readAll_pos _ _ hn, h]; rfl
      | ok chunk =>
        have hk : ∀ w : World, w.ios = [] → readLoop 1 w (n - chunk.length) = readAll w (n - chunk.length) := by
          intro w hw; rw [readAll, hw]; rfl
        by_cases hc : n - chunk.length > 0
        · refine ⟨.wait, es ++ [.read (n - chunk.length)], fun d l => ?_⟩
          simp only []; rw [List.nil_append, readAll_pos _ _ hn, h]
          show R.bind (readLoop 1 _ _) _ = _
          rw [hk _ rfl, readAll_wait _ _ _ hc]
          simp [R.bind, Shape.mk]
        · refine ⟨.ok (chunk ++ []), es, fun d l => ?_⟩
          simp only []; rw [List.nil_append, readAll_pos _ _ hn, h]
          show R.bind (readLoop 1 _ _) _ = _
          have : n - chunk.length = 0 := by omega
          rw [hk _ rfl, this, readAll_zero]
          rfl
    · have : n = 0 := by omega
      subst this
      refine ⟨.ok [], [], [], ⟨[], rfl⟩, ?_, ?_, by intro h; cases h⟩ <;> intros <;>
        simp [readAll_zero, Shape.mk]
  | cons a ios ih =>
    by_cases hn : n > 0
    · obtain ⟨sh, es, hs, h⟩ := readData_one n a
      have hk : ∀ (chunk : List Nat) (w : World) (more : List Io), w.ios = more →
          readLoop (more.length + 1) w (n - chunk.length) = readAll w (n - chunk.length) := by
        intro chunk w more hw; rw [readAll, hw]
      cases sh with
      | wait => exact absurd rfl hs
      | throw e =>
        refine ⟨.throw e, ios, [.read n] ++ es, ⟨[a], rfl⟩, ?_, ?_, by intro h; cases h⟩
        · intro d l; simp only []; rw [readAll_pos _ _ hn, h]; simp [R.bind, Shape.mk]
        · intro _ more d l; simp only []; rw [List.cons_append, readAll_pos _ _ hn, h]; simp [R.bind, Shape.mk]
      | abort =>
        refine ⟨.abort, ios, [.read n] ++ es, ⟨[a], rfl⟩, ?_, ?_, by intro h; cases h⟩
        · intro d l; simp only []; rw [readAll_pos _ _ hn, h]; simp [R.bind, Shape.mk]
        · intro _ more d l; simp only []; rw [List.cons_append, readAll_pos _ _ hn, h]; simp [R.bind, Shape.mk]
      | ok chunk =>
        have heq : ∀ more d l, readAll ⟨a :: more, d, l⟩ n =
            (readAll ⟨more, d, l ++ [.read n] ++ es⟩ (n - chunk.length)).bind
              fun rest w' => .ok (chunk ++ rest) w' := by
          intro more d l
          rw [readAll_pos _ _ hn, h]
          show R.bind (readLoop (more.length + 1) _ _) _ = _
          rw [hk chunk _ more rfl]
        have hgood : GoodAt (fun w => (readAll w (n - chunk.length)).bind
              fun rest w' => .ok (chunk ++ rest) w') ios := by
          exact goodAt_bind (ih _) fun r => good_const (.ok (chunk ++ r)) (by simp)
        obtain ⟨sh, rest, es', ⟨used, hu⟩, h1, h2, h3⟩ := hgood
        refine ⟨sh, rest, [.read n] ++ es ++ es', ⟨a :: used, by rw [hu]; rfl⟩, ?_, ?_, ?_⟩
        · intro d l; exact (heq _ d l).trans ((h1 _ _).trans (by simp))
        · intro hw more d l; exact (heq _ d l).trans ((h2 hw more _ _).trans (by simp))
        · intro hw
          obtain ⟨hr, h3⟩ := h3 hw
          refine ⟨hr, fun x => ?_⟩
          obtain ⟨sh2, es2, h4⟩ := h3 x
          refine ⟨sh2, es2, fun d l => ?_⟩
          exact (heq _ d l).trans ((h4 _ _).trans (by simp))
    · have : n = 0 := by omega
      subst this
      refine ⟨.ok [], a :: ios, [], ⟨[], rfl⟩, ?_, ?_, by intro h; cases h⟩ <;> intros <;>
        simp [readAll_zero, Shape.mk]

theorem readPacket_good (cfg : Cfg) : Good fun w => readPacket cfg w := by
  refine good_bind (readAll_good 8) fun sz => ?_
  by_cases h : Buffer.leNat sz < 8 ∨ Buffer.leNat sz > cfg.buffer.sizeMax
  · simp only [if_pos h]; exact good_const (.throw _) (by simp)
  · simp only [if_neg h]
    by_cases h2 : cfg.buffer.canAlloc (Buffer.leNat sz - 8) = true
    · simp only [if_pos h2]; exact readAll_good _
    · simp only [if_neg h2]; exact good_const (.throw _) (by simp)

/-- The request and the reply of a call. -/
def exchange (cfg : Cfg) (fs : List Field) (w : World) : R (List Nat) :=
  (writePacket w fs).bind fun _ w => readPacket cfg w

theorem exchange_good (cfg : Cfg) (fs : List Field) : Good (exchange cfg fs) :=
  good_bind (writePacket_good fs) fun _ => readPacket_good cfg

/-- Without an answer nothing has come back. -/
theorem exchange_nil (cfg : Cfg) (fs : List Field) (d : List (Except Nat Int)) (l : List Event) :
    (∃ w, exchange cfg fs ⟨[], d, l⟩ = .abort w) ∨ (∃ w, exchange cfg fs ⟨[], d, l⟩ = .wait w) := by
  unfold exchange writePacket
  cases Buffer.sealPacket (Buffer.putFields Buffer.newPacket fs) with
  | none => exact .inl ⟨_, rfl⟩
  | some bytes => exact .inr ⟨_, rfl⟩

/-- After a failure. -/
def closed (s : Session) : Session := { s with connected := false }

/-- What a call does, in terms of its exchange: `post` is what it does with the reply, `none` if it ends the
process. -/
def CallShape (f : World → Done1) (cfg : Cfg) (s : Session) : Prop :=
  ∃ (fs : List Field) (fail : Exn → Ret)
    (post : List Nat → List (Except Nat Int) → Option (Ret × Bool × List (Except Nat Int) × List Event)),
    ∀ w : World,
      match exchange cfg fs w with
      | .ok reply w' =>
        match post reply w'.dups with
        | some (r, true, d, es) => f w = .returned r s ⟨w'.ios, d, w'.log ++ es⟩
        | some (r, false, d, es) => f w = .returned r (closed s) ⟨w'.ios, d, w'.log ++ es ++ [.closePipe]⟩
        | none => ∃ b w2, f w = .aborted b w2
      | .throw e w' => f w = .returned (fail e) (closed s) (w'.add [.closePipe])
      | .abort _ => ∃ b w2, f w = .aborted b w2
      | .wait w' => f w = .waiting w'

/-! ### What is done with the reply -/

def frame {α : Type} (ios : List Io) (l : List Event) : R α → R α
  | .ok a w => .ok a ⟨ios, w.dups, l ++ w.log⟩
  | .throw e w => .throw e ⟨ios, w.dups, l ++ w.log⟩
  | .abort w => .abort ⟨ios, w.dups, l ++ w.log⟩
  | .wait w => .wait ⟨ios, w.dups, l ++ w.log⟩

/-- The computation does not look at the answers and does not wait. -/
def Framed {α : Type} (f : World → R α) : Prop :=
  ∀ ios d l, f ⟨ios, d, l⟩ = frame ios l (f ⟨[], d, []⟩) ∧ ∀ w, f ⟨ios, d, l⟩ ≠ .wait w

theorem framed_bind {α β : Type} {f : World → R α} {k : α → World → R β} (hf : Framed f)
    (hk : ∀ a, Framed (k a)) : Framed fun w => (f w).bind k := by
  intro ios d l
  have h := (hf ios d l).1
  have h0 := (hf [] d []).1
  have hw := (hf [] d []).2
  simp only [h]
  cases hc : f ⟨[], d, []⟩ with
  | ok a w0 =>
    rw [hc] at h0
    have hi : w0 = ⟨[], w0.dups, w0.log⟩ := by simp only [frame] at h0; injection h0
    have h1 := hk a ios w0.dups (l ++ w0.log)
    have h2 := hk a [] w0.dups w0.log
    show R.bind (.ok a _) k = frame ios l (R.bind (.ok a w0) k) ∧ _
    refine ⟨?_, h1.2⟩
    show k a _ = frame ios l (k a w0)
    rw [h1.1, hi, h2.1]
    cases k a ⟨[], w0.dups, []⟩ <;> simp [frame]
  | throw e w0 => exact ⟨rfl, by intro w h; cases h⟩
  | abort w0 => exact ⟨rfl, by intro w h; cases h⟩
  | wait w0 => exact absurd hc (hw _)

theorem framed_const {α : Type} (sh : Shape α) (hs : sh ≠ .wait) (es : List Event) :
    Framed fun w => sh.mk (w.add es) := by
  intro ios d l
  cases sh with
  | wait => exact absurd rfl hs
  | ok a => exact ⟨by simp [Shape.mk, frame, World.add], by intro w h; cases h⟩
  | throw a => exact ⟨by simp [Shape.mk, frame, World.add], by intro w h; cases h⟩
  | abort => exact ⟨by simp [Shape.mk, frame, World.add], by intro w h; cases h⟩

theorem framed_pure {α : Type} (sh : Shape α) (hs : sh ≠ .wait) : Framed fun w => sh.mk w := by
  have := framed_const sh hs []
  simpa [World.add] using this

theorem decoded_framed {α : Type} (cfg : Cfg) (r : Buffer.Res α) : Framed fun w => decoded cfg w r := by
  cases r with
  | ok a off => exact framed_pure (.ok (a, off)) (by simp)
  | decodeError => exact framed_pure (.throw _) (by simp)
  | allocError => exact framed_pure (.throw _) (by simp)
  | assertFail => exact framed_pure .abort (by simp)

theorem stealHandle_framed (remote : Int) : Framed fun w => stealHandle w remote := by
  by_cases h : remote = 0
  · simp only [stealHandle, if_pos h]; exact framed_pure (.ok 0) (by simp)
  · intro ios d l
    simp only [stealHandle, if_neg h]
    cases d with
    | nil => exact ⟨by simp [frame], by intro w h; cases h⟩
    | cons x d =>
      cases x with
      | ok a => exact ⟨by simp [frame, World.add], by intro w h; cases h⟩
      | error a => exact ⟨by simp [frame], by intro w h; cases h⟩

theorem dropHandle_add (w : World) (h : Int) : dropHandle w h = w.add (if h = 0 then [] else [.closeHandle h]) := by
  unfold dropHandle
  split <;> simp [World.add]

theorem takeHandles_framed (cfg : Cfg) (o : SpawnOut) (p t : Int) : Framed fun w => takeHandles cfg w o p t := by
  refine framed_bind (stealHandle_framed _) fun hp => ?_
  intro ios d l
  have h := (stealHandle_framed (handleFromInt64 cfg t) ios d l).1
  have hw := (stealHandle_framed (handleFromInt64 cfg t) [] d []).2
  simp only [] at h hw
  simp only [h]
  cases hc : stealHandle ⟨[], d, []⟩ (handleFromInt64 cfg t) with
  | ok ht w0 =>
    refine ⟨?_, by intro w h; cases h⟩
    simp only [frame, dropHandle_add]
    cases o.thread.isSome <;> cases o.process.isSome <;> simp [World.add]
  | throw e w0 =>
    refine ⟨?_, by intro w h; cases h⟩
    simp only [frame, dropHandle_add]
    simp [World.add]
  | abort w0 => exact ⟨rfl, by intro w h; cases h⟩
  | wait w0 => exact absurd hc (hw _)

theorem spawnReply_framed (cfg : Cfg) (o : SpawnOut) (reply : List Nat) :
    Framed fun w => spawnReply cfg w o reply := by
  refine framed_bind (decoded_framed cfg _) fun result => ?_
  by_cases h0 : result.1 = 0
  · simp only [if_pos h0]
    refine framed_bind (decoded_framed cfg _) fun err => ?_
    refine framed_bind (decoded_framed cfg _) fun _ => framed_pure (.ok _) (by simp)
  · simp only [if_neg h0]
    by_cases h1 : result.1 = 1
    · simp only [if_pos h1]
      refine framed_bind (decoded_framed cfg _) fun process => ?_
      refine framed_bind (decoded_framed cfg _) fun thread => ?_
      refine framed_bind (decoded_framed cfg _) fun _ => ?_
      exact framed_bind (takeHandles_framed cfg _ _ _) fun _ => framed_pure (.ok _) (by simp)
    · simp only [if_neg h1]
      exact framed_pure (.throw _) (by simp)

/-! ### The three calls -/

def setSizeRet (we : Bool) (r : Except Exn Int) : Ret := ⟨(apiCatch 0 we r).1, (apiCatch 0 we r).2, [], noOut⟩

theorem setSize_shape (cfg : Cfg) (we : Bool) (s : Session) (hs : s.connected = true) (cols rows : Int)
    (h : cols > 0 ∧ rows > 0) : CallShape (fun w => call cfg we s w (.setSize cols rows)) cfg s := by
  refine ⟨[.int32 1, .int32 cols, .int32 rows], fun e => setSizeRet we (.error e), fun reply d =>
    match Buffer.assertEof reply 0 with
    | .ok _ _ => some (setSizeRet we (.ok 1), true, d, [])
    | .decodeError => some (setSizeRet we (.error .decode), false, d, [])
    | .allocError => some (setSizeRet we (.error (allocExn cfg)), false, d, [])
    | .assertFail => none, fun w => ?_⟩
  have hb : ∀ w, setSizeBody cfg cols rows w = (exchange cfg [.int32 1, .int32 cols, .int32 rows] w).bind
      fun reply w => (decoded cfg w (Buffer.assertEof reply 0)).bind fun _ w => .ok (.ok ()) w := by
    intro w
    unfold setSizeBody exchange
    cases writePacket w [.int32 1, .int32 cols, .int32 rows] <;> rfl
  simp only [call, setSize, if_pos h, rpcOperation, hs, if_true, hb]
  cases exchange cfg [.int32 1, .int32 cols, .int32 rows] w with
  | ok reply w' =>
    simp only [R.bind]
    cases Buffer.assertEof reply 0 with
    | ok a off => simp [decoded, setSizeRet, Except.map]
    | decodeError => simp [decoded, setSizeRet, Except.map, closed, World.add]
    | allocError => simp [decoded, setSizeRet, Except.map, closed, World.add]
    | assertFail => simp [decoded]
  | throw e w' => simp [R.bind, setSizeRet, Except.map, closed]
  | abort w' => simp [R.bind]
  | wait w' => simp [R.bind]

def listRet (we : Bool) (r : Except Exn Int) (mem : List Int) : Ret :=
  ⟨(apiCatch 0 we r).1, (apiCatch 0 we r).2, mem, noOut⟩

theorem processList_shape (cfg : Cfg) (we : Bool) (s : Session) (hs : s.connected = true) (mem : List Int)
    (n : Int) : CallShape (fun w => call cfg we s w (.processList mem n)) cfg s := by
  refine ⟨[.int32 2], fun e => listRet we (.error e) mem, fun reply d =>
    match processListReply reply mem n with
    | none => none
    | some (mem', .ok c _) => some (listRet we (.ok c) mem', true, d, [])
    | some (mem', .decodeError) => some (listRet we (.error .decode) mem', false, d, [])
    | some (mem', .allocError) => some (listRet we (.error (allocExn cfg)) mem', false, d, [])
    | some (_, .assertFail) => none, fun w => ?_⟩
  simp only [call, getConsoleProcessList, rpcOperation, hs, if_true, processListBody]
  have he : ((writePacket w [.int32 2]).bind fun _ w => readPacket cfg w) = exchange cfg [.int32 2] w := rfl
  simp only [he]
  cases exchange cfg [.int32 2] w with
  | ok reply w' =>
    simp only []
    cases hp : processListReply reply mem n with
    | none => simp
    | some x =>
      obtain ⟨mem', r⟩ := x
      cases r with
      | ok c off => simp [decoded, R.bind, listRet]
      | decodeError => simp [decoded, R.bind, listRet, closed, World.add]
      | allocError => simp [decoded, R.bind, listRet, closed, World.add]
      | assertFail => simp [decoded, R.bind]
  | throw e w' => simp [listRet, closed]
  | abort w' => simp
  | wait w' => simp

def spawnRet (we : Bool) (r : Except Exn Int) (o : SpawnOut) : Ret :=
  ⟨(apiCatch 0 we r).1, (apiCatch 0 we r).2, [], o⟩

def spawnPost (we : Bool) (o : SpawnOut) :
    R (Except Nat SpawnOut) → Option (Ret × Bool × List (Except Nat Int) × List Event)
  | .ok (.ok o') w => some (spawnRet we (.ok 1) o', true, w.dups, w.log)
  | .ok (.error code) w => some (spawnRet we (.error refused)
      { resetOut o with createError := o.createError.map fun _ => code }, true, w.dups, w.log)
  | .throw e w => some (spawnRet we (.error e) (resetOut o), false, w.dups, w.log)
  | .abort _ => none
  | .wait _ => none

theorem spawnBody_eq (cfg : Cfg) (s : Session) (c : SpawnConfig) (o : SpawnOut) (w : World) :
    spawnBody cfg s c o w = (exchange cfg (spawnFields s c o) w).bind fun reply w => spawnReply cfg w o reply := by
  unfold spawnBody exchange
  generalize spawnFields s c o = fs
  cases writePacket w fs <;> rfl

def spawnEnd (we : Bool) (s : Session) (o : SpawnOut) : R (Except Nat SpawnOut) → Done1
  | .ok (.ok o') w' => .returned (spawnRet we (.ok 1) o') s w'
  | .ok (.error code) w' => .returned (spawnRet we (.error refused)
      { resetOut o with createError := o.createError.map fun _ => code }) s w'
  | .throw e w' => .returned (spawnRet we (.error e) (resetOut o)) (closed s) (w'.add [.closePipe])
  | .abort w' => .aborted false w'
  | .wait w' => .waiting w'

theorem spawn_call (cfg : Cfg) (we : Bool) (s : Session) (hs : s.connected = true) (c : SpawnConfig)
    (o : SpawnOut) (w : World) :
    call cfg we s w (.spawn c o) = spawnEnd we s o (spawnBody cfg s c (resetOut o) w) := by
  simp only [call, spawn, rpcOperation, hs, if_true]
  cases spawnBody cfg s c (resetOut o) w with
  | ok r w' => cases r <;> rfl
  | throw e w' => rfl
  | abort w' => rfl
  | wait w' => rfl

theorem spawn_shape (cfg : Cfg) (we : Bool) (s : Session) (hs : s.connected = true) (c : SpawnConfig)
    (o : SpawnOut) : CallShape (fun w => call cfg we s w (.spawn c o)) cfg s := by
  have hb := spawnBody_eq cfg s c (resetOut o)
  have hc := spawn_call cfg we s hs c o
  revert hb hc
  generalize spawnFields s c (resetOut o) = fs
  intro hb hc
  refine ⟨fs, fun e => spawnRet we (.error e) (resetOut o), fun reply d =>
    spawnPost we o (spawnReply cfg ⟨[], d, []⟩ (resetOut o) reply), ?_⟩
  intro w
  have hc := hc w
  rw [hb w] at hc
  cases he : exchange cfg fs w with
  | ok reply w' =>
    obtain ⟨ios, d, l⟩ := w'
    have hf := spawnReply_framed cfg (resetOut o) reply ios d l
    have hw := (spawnReply_framed cfg (resetOut o) reply [] d []).2
    rw [he] at hc
    simp only [R.bind] at hc hf hw ⊢
    rw [hc, hf.1]
    cases hq : spawnReply cfg ⟨[], d, []⟩ (resetOut o) reply with
    | ok r w0 => cases r <;> simp [frame, spawnPost, spawnEnd]
    | throw e w0 => simp [frame, spawnPost, spawnEnd, World.add]
    | abort w0 => simp [frame, spawnPost, spawnEnd]
    | wait w0 => exact absurd hq (hw _)
  | throw e w' => rw [he] at hc; exact hc
  | abort w' => rw [he] at hc; exact ⟨_, _, hc⟩
  | wait w' => rw [he] at hc; exact hc

theorem call_shape (cfg : Cfg) (we : Bool) (s : Session) (hs : s.connected = true) (c : Call)
    (hc : argumentsFine c = true) : CallShape (fun w => call cfg we s w c) cfg s := by
  cases c with
  | setSize cols rows => exact setSize_shape cfg we s hs cols rows (by simpa [argumentsFine] using hc)
  | processList mem n => exact processList_shape cfg we s hs mem n
  | spawn c o => exact spawn_shape cfg we s hs c o

/-- A session without its control pipe: the call returns at once. -/
theorem call_unconnected (cfg : Cfg) (we : Bool) (s : Session) (hs : s.connected = false) (c : Call)
    (hc : argumentsFine c = true) : ∃ r, ∀ w, call cfg we s w c = .returned r s w := by
  cases c with
  | setSize cols rows =>
    have h : cols > 0 ∧ rows > 0 := by simpa [argumentsFine] using hc
    exact ⟨_, fun w => by simp only [call, setSize, if_pos h, rpcOperation, hs]; rfl⟩
  | processList mem n =>
    exact ⟨_, fun w => by simp only [call, getConsoleProcessList, rpcOperation, hs]; rfl⟩
  | spawn c o =>
    exact ⟨spawnRet we (.error (.winpty "Agent shutdown due to RPC failure")) (resetOut o), fun w => by
      simp [call, spawn, rpcOperation, hs, spawnRet, Except.map]⟩

/-! ### A call with the answers so far -/

theorem call_start (cfg : Cfg) (we : Bool) (s s' : Session) (c : Call) (hc : argumentsFine c = true)
    (d : List (Except Nat Int)) (l : List Event) (r : Ret) (w' : World)
    (h : call cfg we s ⟨[], d, l⟩ c = .returned r s' w') : s' = s ∧ w' = ⟨[], d, l⟩ := by
  cases hs : s.connected with
  | false =>
    obtain ⟨r0, h0⟩ := call_unconnected cfg we s hs c hc
    rw [h0] at h
    injection h with h1 h2 h3
    exact ⟨h2.symm, h3.symm⟩
  | true =>
    obtain ⟨fs, fail, post, hp⟩ := call_shape cfg we s hs c hc
    have hp := hp ⟨[], d, l⟩
    rcases exchange_nil cfg fs d l with ⟨w, hw⟩ | ⟨w, hw⟩
    · rw [hw] at hp
      obtain ⟨b, w2, hp⟩ := hp
      simp only [hp] at h
      cases h
    · rw [hw] at hp
      simp only at hp
      rw [hp] at h
      cases h

/-- A call that has returned does the same whatever answers follow. -/
theorem call_more (cfg : Cfg) (we : Bool) (s s' : Session) (c : Call) (hc : argumentsFine c = true)
    (ios : List Io) (d : List (Except Nat Int)) (l : List Event) (r : Ret) (w' : World)
    (h : call cfg we s ⟨ios, d, l⟩ c = .returned r s' w') :
    ∃ es, w'.log = l ++ es ∧ ∀ more l2,
      call cfg we s ⟨ios ++ more, d, l2⟩ c = .returned r s' ⟨w'.ios ++ more, w'.dups, l2 ++ es⟩ := by
  cases hs : s.connected with
  | false =>
    obtain ⟨r0, h0⟩ := call_unconnected cfg we s hs c hc
    rw [h0] at h
    injection h with h1 h2 h3
    subst h1 h2 h3
    exact ⟨[], by simp, fun more l2 => by rw [h0]; simp⟩
  | true =>
    obtain ⟨fs, fail, post, hp⟩ := call_shape cfg we s hs c hc
    obtain ⟨sh, rest, es, _, g1, g2, _⟩ := exchange_good cfg fs ios
    have hp1 := hp ⟨ios, d, l⟩
    rw [g1] at hp1
    cases sh with
    | ok reply =>
      simp only [Shape.mk] at hp1
      cases hpost : post reply d with
      | none =>
        rw [hpost] at hp1
        obtain ⟨b, w2, hp1⟩ := hp1
        rw [hp1] at h; cases h
      | some x =>
        obtain ⟨r0, ok, d', es'⟩ := x
        rw [hpost] at hp1
        cases ok with
        | true =>
          simp only at hp1
          rw [hp1] at h
          injection h with h1 h2 h3
          subst h1 h2 h3
          refine ⟨es ++ es', by simp, fun more l2 => ?_⟩
          have hp2 := hp ⟨ios ++ more, d, l2⟩
          rw [g2 (by simp)] at hp2
          simp only [Shape.mk, hpost] at hp2
          rw [hp2]; simp
        | false =>
          simp only at hp1
          rw [hp1] at h
          injection h with h1 h2 h3
          subst h1 h2 h3
          refine ⟨es ++ es' ++ [.closePipe], by simp, fun more l2 => ?_⟩
          have hp2 := hp ⟨ios ++ more, d, l2⟩
          rw [g2 (by simp)] at hp2
          simp only [Shape.mk, hpost] at hp2
          rw [hp2]; simp
    | throw e =>
      simp only [Shape.mk] at hp1
      rw [hp1] at h
      injection h with h1 h2 h3
      subst h1 h2 h3
      refine ⟨es ++ [.closePipe], by simp [World.add], fun more l2 => ?_⟩
      have hp2 := hp ⟨ios ++ more, d, l2⟩
      rw [g2 (by simp)] at hp2
      simp only [Shape.mk] at hp2
      rw [hp2]; simp [World.add]
    | abort =>
      simp only [Shape.mk] at hp1
      obtain ⟨b, w2, hp1⟩ := hp1
      rw [hp1] at h; cases h
    | wait =>
      simp only [Shape.mk] at hp1
      rw [hp1] at h; cases h

/-- A call that waits goes on from there with one more answer. -/
theorem call_next (cfg : Cfg) (we : Bool) (s : Session) (c : Call) (hc : argumentsFine c = true)
    (ios : List Io) (d : List (Except Nat Int)) (w : World) (a : Io)
    (h : call cfg we s ⟨ios, d, []⟩ c = .waiting w) :
    (∀ w2, call cfg we s ⟨ios ++ [a], d, []⟩ c = .waiting w2 → ∃ es, w2.log = w.log ++ es) ∧
    (∀ r s' w2, call cfg we s ⟨ios ++ [a], d, []⟩ c = .returned r s' w2 → w2.ios = [] ∧ ∃ es,
      ((s' = s ∧ s.connected = true) ∧ w2.log = w.log ++ es ∨
        s' = closed s ∧ w2.log = w.log ++ es ++ [.closePipe])) := by
  cases hs : s.connected with
  | false =>
    obtain ⟨r0, h0⟩ := call_unconnected cfg we s hs c hc
    rw [h0] at h
    cases h
  | true =>
    obtain ⟨fs, fail, post, hp⟩ := call_shape cfg we s hs c hc
    obtain ⟨sh, rest, es, _, g1, g2, g3⟩ := exchange_good cfg fs ios
    have hp1 := hp ⟨ios, d, []⟩
    rw [g1] at hp1
    cases sh with
    | ok reply =>
      simp only [Shape.mk] at hp1
      cases hpost : post reply d with
      | none =>
        rw [hpost] at hp1
        obtain ⟨b, w2, hp1⟩ := hp1
        rw [hp1] at h; cases h
      | some x =>
        obtain ⟨r0, ok, d', es'⟩ := x
        rw [hpost] at hp1
        cases ok <;> (simp only at hp1; rw [hp1] at h; cases h)
    | throw e =>
      simp only [Shape.mk] at hp1
      rw [hp1] at h; cases h
    | abort =>
      simp only [Shape.mk] at hp1
      obtain ⟨b, w2, hp1⟩ := hp1
      rw [hp1] at h; cases h
    | wait =>
      simp only [Shape.mk] at hp1
      rw [hp1] at h
      injection h with h
      subst h
      obtain ⟨sh2, es2, g4⟩ := (g3 rfl).2 a
      have hp2 := hp ⟨ios ++ [a], d, []⟩
      rw [g4] at hp2
      cases sh2 with
      | ok reply =>
        simp only [Shape.mk] at hp2
        cases hpost : post reply d with
        | none =>
          rw [hpost] at hp2
          obtain ⟨b, w2, hp2⟩ := hp2
          rw [hp2]
          exact ⟨(by intro w2 h; cases h), (by intro r s' w2 h; cases h)⟩
        | some x =>
          obtain ⟨r0, ok, d', es'⟩ := x
          rw [hpost] at hp2
          cases ok with
          | true =>
            simp only at hp2
            rw [hp2]
            refine ⟨(by intro w2 h; cases h), ?_⟩
            intro r s' w2 h
            injection h with h1 h2 h3
            subst h1 h2 h3
            exact ⟨rfl, es2 ++ es', .inl ⟨⟨rfl, rfl⟩, by simp⟩⟩
          | false =>
            simp only at hp2
            rw [hp2]
            refine ⟨(by intro w2 h; cases h), ?_⟩
            intro r s' w2 h
            injection h with h1 h2 h3
            subst h1 h2 h3
            exact ⟨rfl, es2 ++ es', .inr ⟨rfl, by simp⟩⟩
      | throw e =>
        simp only [Shape.mk] at hp2
        rw [hp2]
        refine ⟨(by intro w2 h; cases h), ?_⟩
        intro r s' w2 h
        injection h with h1 h2 h3
        subst h1 h2 h3
        exact ⟨rfl, es2, .inr ⟨rfl, by simp [World.add]⟩⟩
      | abort =>
        simp only [Shape.mk] at hp2
        obtain ⟨b, w2, hp2⟩ := hp2
        rw [hp2]
        exact ⟨(by intro w2 h; cases h), (by intro r s' w2 h; cases h)⟩
      | wait =>
        simp only [Shape.mk] at hp2
        rw [hp2]
        refine ⟨?_, by intro r s' w2 h; cases h⟩
        intro w2 h
        injection h with h
        subst h
        exact ⟨es2, by simp⟩

end Winpty.ClientThreads
