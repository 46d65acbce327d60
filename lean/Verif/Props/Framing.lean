import Verif.Lemmas.Framing

/-!
# C03: framing of the control pipe

`Spec.IsPacket`: a byte string that starts with its own length.  The handler `h` of the agent is
arbitrary: the statements hold for every effect the handlers may have, including aborting.
-/
namespace Winpty.Props
open Winpty.Buffer Winpty.Framing Winpty.Spec

variable {σ : Type}

/-- The handler state, the bytes kept for later and whether the agent has aborted depend only on the
bytes that arrived, not on how the system split them (`Run.view` forgets only the read-ahead
limit). -/
theorem C03_chunk_independent (sizeMax : Nat) (h : σ → List Nat → Option σ) (s : σ)
    (chunks chunks' : List (List Nat)) (hne : chunks ≠ []) (hne' : chunks' ≠ [])
    (hsame : chunks.flatten = chunks'.flatten) :
    (arrivals sizeMax h (start s) chunks).view = (arrivals sizeMax h (start s) chunks').view := by
  obtain ⟨c, cs, rfl⟩ := List.exists_cons_of_ne_nil hne
  obtain ⟨d, ds, rfl⟩ := List.exists_cons_of_ne_nil hne'
  rw [arrivals_cons_view, arrivals_cons_view, hsame]

/-- If the bytes that arrived, in whatever pieces, are packets `ps` followed by an incomplete packet
`rest`, then exactly the packets `ps` have been handled, in order, once each, and `rest` is kept;
if a handler fails the agent stops there. -/
theorem C03_exactly_the_complete_packets (sizeMax : Nat) (h : σ → List Nat → Option σ) (s : σ)
    (ps : List (List Nat)) (rest : List Nat) (chunks : List (List Nat))
    (hps : ∀ p ∈ ps, IsPacket sizeMax p) (hrest : rest = [] ∨ IsIncomplete sizeMax rest)
    (hne : chunks ≠ []) (hstream : chunks.flatten = ps.flatten ++ rest) :
    (arrivals sizeMax h (start s) chunks).view =
      ((handleAll h s ps).1, if (handleAll h s ps).2 then some rest else none) := by
  obtain ⟨c, cs, rfl⟩ := List.exists_cons_of_ne_nil hne
  rw [arrivals_cons_view, hstream]
  simp only [start, arrive, List.nil_append]
  rw [pollLoop_packets sizeMax h s ps rest _ hps]
  split
  · rcases hrest with rfl | hr
    · rw [pollLoop]; simp [Run.view]
    · rw [pollLoop_incomplete sizeMax h _ rest _ hr]
  · rfl

/-- A size field below eight (or above `SIZE_MAX`) aborts the agent, after the packets before it. -/
theorem C03_bad_size_aborts (sizeMax : Nat) (h : σ → List Nat → Option σ) (s : σ)
    (ps : List (List Nat)) (n : Nat) (tail : List Nat) (chunks : List (List Nat))
    (hps : ∀ p ∈ ps, IsPacket sizeMax p) (hn : n < 2 ^ 64) (hbad : n < 8 ∨ n > sizeMax)
    (hstream : chunks.flatten = ps.flatten ++ (digits256 8 n ++ tail)) :
    (arrivals sizeMax h (start s) chunks).view = ((handleAll h s ps).1, none) := by
  cases chunks with
  | nil =>
    have := congrArg List.length hstream
    simp [digits256_length] at this
    omega
  | cons c cs =>
    rw [arrivals_cons_view, hstream]
    simp only [start, arrive, List.nil_append]
    rw [pollLoop_packets sizeMax h s ps _ _ hps]
    split
    · rw [pollLoop, dif_neg (by simp [digits256_length]), dif_pos]
      · rfl
      · rw [List.take_left' (digits256_length _ _), leNat_digits _ _ (by omega)]
        omega
    · rfl

/-- No packet size stalls the agent: however the bytes arrived, a running agent always issues a
further read of at least one byte on the control pipe. -/
theorem C03_never_stalls (sizeMax : Nat) (h : σ → List Nat → Option σ) (s : σ)
    (chunks : List (List Nat)) (a : Agent σ)
    (ha : arrivals sizeMax h (start s) chunks = .running a) :
    ∃ n, issueRead a.inQueue.length a.readBufferSize = some n ∧ 0 < n := by
  have key : ∀ (chunks : List (List Nat)) (r : Run σ),
      (∀ b, r = .running b → b.inQueue.length < b.readBufferSize ∧ 8 ≤ b.readBufferSize) →
      ∀ b, arrivals sizeMax h r chunks = .running b →
        b.inQueue.length < b.readBufferSize ∧ 8 ≤ b.readBufferSize := by
    intro chunks
    induction chunks with
    | nil => intro r hr b hb; exact hr b hb
    | cons c cs ih =>
      intro r hr b hb
      refine ih (arrive sizeMax h r c) ?_ b hb
      intro b' hb'
      cases r with
      | running a' => exact pollLoop_room sizeMax h _ _ _ (hr a' rfl).2 b' hb'
      | aborted => cases hb'
  have := (key chunks (start s) (by intro b hb; cases hb; simp) a ha).1
  refine ⟨64 * 1024, ?_, by omega⟩
  simp [issueRead, this]

/-- The client reads exactly the next packet of the reply stream and returns its payload, whatever
amounts the individual `ReadFile` calls return, and leaves the following bytes unread. -/
theorem C03_client_reads_one_packet (sizeMax : Nat) (p more : List Nat) (grants : List Nat)
    (hp : IsPacket sizeMax p) :
    ∃ g, readPacket sizeMax ⟨p ++ more, grants⟩ = .ok (p.drop 8) ⟨more, g⟩ := by
  have h8 := hp.1
  have hsm := hp.2.1
  have hA := readAll_eq ⟨p ++ more, grants⟩ 8
  rw [if_pos (by simp; omega)] at hA
  obtain ⟨g, hg⟩ := hA
  simp only [take8_append _ _ h8] at hg
  have hB := readAll_eq ⟨(p ++ more).drop 8, g⟩ (p.length - 8)
  rw [if_pos (by simp; omega)] at hB
  obtain ⟨g', hg'⟩ := hB
  refine ⟨g', ?_⟩
  simp only [readPacket, hg, isPacket_size hp]
  rw [if_neg (by omega), hg']
  simp only [CRes.ok.injEq, Pipe.mk.injEq, and_true]
  rw [List.drop_append_of_le_length h8]
  constructor
  · exact List.take_left' (by simp)
  · exact List.drop_left' (by simp)

/-- A reply stream that ends early is an I/O error, and a size below eight is refused. -/
theorem C03_client_errors (sizeMax : Nat) (grants : List Nat) :
    (∀ r, (r = [] ∨ IsIncomplete sizeMax r) → readPacket sizeMax ⟨r, grants⟩ = .ioError) ∧
    (∀ n tail, n < 2 ^ 64 → n < 8 ∨ n > sizeMax →
      readPacket sizeMax ⟨digits256 8 n ++ tail, grants⟩ = .badSize) := by
  constructor
  · rintro r hr
    have hA := readAll_eq ⟨r, grants⟩ 8
    by_cases h8 : 8 ≤ r.length
    · rcases hr with rfl | ⟨p, hp, hlt, hpre⟩
      · simp at h8
      · have hsm := hp.2.1
        have hsz : leNat (r.take 8) = p.length := by
          rw [← isPacket_size hp, ← hpre, List.take_take, Nat.min_eq_left (by omega)]
        rw [if_pos h8] at hA
        obtain ⟨g, hg⟩ := hA
        have hB := readAll_eq ⟨r.drop 8, g⟩ (p.length - 8)
        rw [if_neg (by simp; omega)] at hB
        simp only [readPacket, hg, hsz]
        rw [if_neg (by omega), hB]
    · rw [if_neg h8] at hA
      simp [readPacket, hA]
  · intro n tail hn hbad
    have hA := readAll_eq ⟨digits256 8 n ++ tail, grants⟩ 8
    rw [if_pos (by simp [digits256_length])] at hA
    obtain ⟨g, hg⟩ := hA
    simp only [readPacket, hg]
    rw [List.take_left' (digits256_length _ _), leNat_digits _ _ (by omega), if_pos hbad]

/-- Non-vacuity: two packets and the start of a third, cut in the middle of a size field; the
handler records payloads. -/
example : let p1 := digits256 8 10 ++ [7, 9]
    let p2 := digits256 8 8
    let rest := (digits256 8 200000).take 5
    (∀ p ∈ [p1, p2], IsPacket (2 ^ 32 - 1) p) ∧
      (arrivals (2 ^ 32 - 1) (fun (s : List (List Nat)) p => some (s ++ [p.drop 8])) (start [])
        [p1.take 3, p1.drop 3 ++ p2 ++ rest]).view = ([[7, 9], []], some [64, 13, 3, 0, 0]) := by
  refine ⟨?_, ?_⟩
  · intro p hp
    simp only [List.mem_cons, List.not_mem_nil, or_false] at hp
    rcases hp with rfl | rfl <;> (unfold IsPacket; decide)
  · rw [arrivals_cons_view]
    simp only [start, arrive]
    have hps : ∀ p ∈ [digits256 8 10 ++ [7, 9], digits256 8 8], IsPacket (2 ^ 32 - 1) p := by
      intro p hp
      simp only [List.mem_cons, List.not_mem_nil, or_false] at hp
      rcases hp with rfl | rfl <;> (unfold IsPacket; decide)
    have := pollLoop_packets (2 ^ 32 - 1) (fun (s : List (List Nat)) p => some (s ++ [p.drop 8])) []
      [digits256 8 10 ++ [7, 9], digits256 8 8] ((digits256 8 200000).take 5) 65536 hps
    have e : ([] : List Nat) ++ [(digits256 8 10 ++ [7, 9]).take 3,
        (digits256 8 10 ++ [7, 9]).drop 3 ++ digits256 8 8 ++ (digits256 8 200000).take 5].flatten =
        [digits256 8 10 ++ [7, 9], digits256 8 8].flatten ++ (digits256 8 200000).take 5 := by decide
    rw [e, this]
    rw [if_pos (by decide), pollLoop, dif_pos (by decide)]
    decide

end Winpty.Props
