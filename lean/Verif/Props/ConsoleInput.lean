import Verif.Lemmas.ConsoleInputCore
import Verif.Lemmas.DefaultInputMap
import Verif.Spec.Console
/-!
# C07, C08: interpreting the input stream

`setAll newNode defaultRegs = some root` says that `root` is the agent's key map.  `env i` is what the
system reports (console mode, clock, double-click time) when the byte at offset `i` of the input stream
is handled.
-/
namespace Winpty.ConsoleInput
open Winpty.InputMap Winpty.Spec

theorem default_holds {root : Node} (h : setAll newNode defaultRegs = some root) : Holds root table := by
  obtain ⟨r, h1, h2⟩ := table_holds
  rw [defaultRegs_eq, h1] at h
  cases h
  exact h2

theorem default_wf {root : Node} (h : setAll newNode defaultRegs = some root) : WF root :=
  (default_holds h).1

/-- Writing chunks one after the other, each at its own time. -/
def writeAll (sys : Sys) (root : Node) (env : Nat → Env) : Obj → List (Nat × List Nat) → Option Obj
  | o, [] => some o
  | o, (now, chunk) :: rest => (writeInput sys root env now o chunk).bind fun o => writeAll sys root env o rest

theorem writeInput_empty (sys : Sys) (root : Node) (env : Nat → Env) (now : Nat) (o : Obj) :
    writeInput sys root env now o [] = some o := rfl

/-- All chunks together are one scan of everything. -/
theorem writeAll_spec {sys : Sys} {root : Node} (hn : WF root) (env : Nat → Env)
    (chunks : List (Nat × List Nat)) (o : Obj) (hne : (chunks.map (·.2)).flatten ≠ []) :
    ∃ o' s' q', writeAll sys root env o chunks = some o' ∧
      scanLoop sys root env false (o.queue ++ (chunks.map (·.2)).flatten).length o.pos o.st
        (o.queue ++ (chunks.map (·.2)).flatten) = some (s', q') ∧
      R o'.st s' ∧ o'.queue = q' ∧
      o'.pos = o.pos + ((o.queue ++ (chunks.map (·.2)).flatten).length - q'.length) ∧
      o'.st.records = [] := by
  induction chunks generalizing o with
  | nil => exact absurd rfl hne
  | cons c rest ih =>
    obtain ⟨now, w⟩ := c
    by_cases hw : w = []
    · subst hw
      simp only [List.map_cons, List.flatten_cons, List.nil_append] at hne ⊢
      simp only [writeAll, writeInput_empty, Option.bind_some]
      exact ih o hne
    · obtain ⟨s1, q1, o1, e1, e2, e3, e4, e5, _, e7⟩ := writeInput_spec sys root env now o w hw
      simp only [List.map_cons, List.flatten_cons, writeAll, e1, Option.bind_some]
      by_cases hr : (rest.map (·.2)).flatten = []
      · rw [hr, List.append_nil]
        refine ⟨o1, s1, q1, ?_, e2, e3, e4, e5, e7⟩
        clear ih hne
        induction rest with
        | nil => rfl
        | cons d rest ih' =>
          obtain ⟨n', w'⟩ := d
          simp only [List.map_cons, List.flatten_cons, List.append_eq_nil_iff] at hr
          rw [writeAll, hr.1, writeInput_empty]
          exact ih' hr.2
      · obtain ⟨o2, s2, q2, f1, f2, f3, f4, f5, f6⟩ := ih o1 hr
        obtain ⟨_, c, _, g1, g2, _⟩ := scanLoop_total sys root env false (o.queue ++ w).length o.pos o.st
          (o.queue ++ w) (Nat.le_refl _)
        rw [e2] at g1
        cases g1
        have hlen : (o.queue ++ (w ++ (rest.map (·.2)).flatten)).length
            = (o.queue ++ w).length + (rest.map (·.2)).flatten.length := by simp; omega
        have happ := scanLoop_append hn env (o.queue ++ (w ++ (rest.map (·.2)).flatten)).length o.pos o.st
          (o.queue ++ w) (rest.map (·.2)).flatten (by rw [List.append_assoc]; exact Nat.le_refl _)
          (s' := s1) (p' := q1) (by rw [← e2]; exact scanLoop_fuel _ _ _ _ _ _ _ _ _ (by omega) (Nat.le_refl _))
        rw [List.append_assoc] at happ
        rw [e4, e5] at f2
        obtain ⟨t', h1, h2⟩ := R_loop e3 sys root env false _ _ _ f2
        have hq : q1.length ≤ (o.queue ++ w).length := by rw [g2]; simp
        refine ⟨o2, t', q2, f1, ?_, f3.trans h2, f4, ?_, f6⟩
        · rw [happ, ← h1]
          exact scanLoop_fuel _ _ _ _ _ _ _ _ _ (by simp only [List.length_append] at *; omega) (Nat.le_refl _)
        · obtain ⟨_, c2, _, k1, k2, _⟩ := scanLoop_total sys root env false
            (q1 ++ (rest.map (·.2)).flatten).length (o.pos + ((o.queue ++ w).length - q1.length)) o1.st
            (q1 ++ (rest.map (·.2)).flatten) (Nat.le_refl _)
          rw [f2] at k1
          cases k1
          have hl := congrArg List.length k2
          rw [f5, e5, hlen, e4]
          simp only [List.length_append] at hl hq ⊢
          omega

end Winpty.ConsoleInput

namespace Winpty.Props
open Winpty.ConsoleInput Winpty.InputMap Winpty.Spec

/-- **C07.**  The same bytes written in two different ways, split into chunks anywhere and at any times,
give the same console events, the same pending bytes, and the same mouse state, whatever the object's
history. -/
theorem C07_chunking (sys : Sys) (root : Node) (hr : setAll newNode defaultRegs = some root)
    (env : Nat → Env) (o : Obj) (hrec : o.st.records = []) (chunks chunks' : List (Nat × List Nat))
    (h : (chunks.map (·.2)).flatten = (chunks'.map (·.2)).flatten) :
    ∃ o1 o2, writeAll sys root env o chunks = some o1 ∧ writeAll sys root env o chunks' = some o2 ∧
      events o1.st.out = events o2.st.out ∧ o1.queue = o2.queue ∧ o1.pos = o2.pos ∧
      o1.st.mouseButtonState = o2.st.mouseButtonState ∧ o1.st.doubleClick = o2.st.doubleClick ∧
      o1.st.records = [] ∧ o2.st.records = [] := by
  have hn := default_wf hr
  have nothing : ∀ cs : List (Nat × List Nat), (cs.map (·.2)).flatten = [] →
      writeAll sys root env o cs = some o := by
    intro cs
    induction cs with
    | nil => intro _; rfl
    | cons d rest ih =>
      obtain ⟨n', w'⟩ := d
      intro hd
      simp only [List.map_cons, List.flatten_cons, List.append_eq_nil_iff] at hd
      rw [writeAll, hd.1, writeInput_empty]
      exact ih hd.2
  by_cases hne : (chunks.map (·.2)).flatten = []
  · exact ⟨o, o, nothing _ hne, nothing _ (h ▸ hne), rfl, rfl, rfl, rfl, rfl, hrec, hrec⟩
  · obtain ⟨o1, s1, q1, a1, a2, a3, a4, a5, a6⟩ := writeAll_spec hn env chunks o hne
    obtain ⟨o2, s2, q2, b1, b2, b3, b4, b5, b6⟩ := writeAll_spec (sys := sys) hn env chunks' o (h ▸ hne)
    rw [← h] at b2 b5
    rw [a2] at b2
    cases b2
    obtain ⟨c1, c2, _, _, _, _, _, c8⟩ := (R_iff _ _).1 (a3.trans b3.symm)
    refine ⟨o1, o2, a1, b1, ?_, by rw [a4, b4], by rw [a5, b5], c1, c2, a6, b6⟩
    simpa [a6, b6, events] using c8

/-- Beside C07: a mouse report, a Ctrl-C, an accented letter and an arrow key, byte by byte. -/
example (sys : Sys) (root : Node) (hr : setAll newNode defaultRegs = some root) (env : Nat → Env) :
    ∃ o1 o2, writeAll sys root env {} [(0, [27, 91, 60, 48, 59, 51, 59, 52, 77, 3, 0xC3, 0xA9, 27, 91, 65])] = some o1 ∧
      writeAll sys root env {} ([27, 91, 60, 48, 59, 51, 59, 52, 77, 3, 0xC3, 0xA9, 27, 91, 65].map fun b => (7, [b])) = some o2 ∧
      events o1.st.out = events o2.st.out := by
  obtain ⟨o1, o2, h1, h2, h3, _⟩ := C07_chunking sys root hr env {} rfl
    [(0, [27, 91, 60, 48, 59, 51, 59, 52, 77, 3, 0xC3, 0xA9, 27, 91, 65])]
    ([27, 91, 60, 48, 59, 51, 59, 52, 77, 3, 0xC3, 0xA9, 27, 91, 65].map fun b => (7, [b])) (by rfl)
  exact ⟨o1, o2, h1, h2, h3⟩

/-- **C08.**  Every scanning step either reports an incomplete sequence or consumes at least one and at
most the available bytes; it never reads past the input. -/
theorem C08_step (sys : Sys) (root : Node) (env : Env) (s : St) (input : List Nat) (isEof : Bool)
    (h : input ≠ []) :
    scanInput sys root env s input isEof = .incomplete ∨
    ∃ n s', scanInput sys root env s input isEof = .consumed n s' ∧ 0 < n ∧ n ≤ input.length :=
  scanInput_progress sys root env s input isEof h

/-- Processing of pending bytes step by step: `Run … s queue items s' rest` says that from state `s` the
queue is cut into `items`, each handled by one step, and `rest` stays. -/
inductive Run (sys : Sys) (root : Node) (env : Nat → Env) (isEof : Bool) :
    Nat → St → List Nat → List (List Nat) → St → List Nat → Prop
  | done (pos : Nat) (s : St) : Run sys root env isEof pos s [] [] s []
  | pending (pos : Nat) (s : St) (queue : List Nat)
      (h : scanInput sys root (env pos) s queue isEof = .incomplete) :
      Run sys root env isEof pos s queue [] s queue
  | step (pos : Nat) (s s' s'' : St) (item queue rest : List Nat) (items : List (List Nat)) (hi : item ≠ [])
      (h : scanInput sys root (env pos) s (item ++ queue) isEof = .consumed item.length s')
      (hr : Run sys root env isEof (pos + item.length) s' queue items s'' rest) :
      Run sys root env isEof pos s (item ++ queue) (item :: items) s'' rest

theorem run_of_loop {sys : Sys} {root : Node} {env : Nat → Env} {isEof : Bool} {fuel pos : Nat} {s : St}
    {q : List Nat} {s' : St} {q' : List Nat} (h : scanLoop sys root env isEof fuel pos s q = some (s', q')) :
    ∃ items, Run sys root env isEof pos s q items s' q' := by
  induction fuel generalizing pos s q with
  | zero =>
    cases q with
    | nil => cases h; exact ⟨[], .done pos _⟩
    | cons b q => simp [scanLoop] at h
  | succ fuel ih =>
    cases q with
    | nil => cases h; exact ⟨[], .done pos _⟩
    | cons b q =>
      rw [scanLoop] at h
      rcases C08_step sys root (env pos) s (b :: q) isEof (by simp) with e | ⟨n, s1, e, hn0, hn1⟩
      · simp only [e] at h
        cases h
        exact ⟨[], .pending pos _ _ e⟩
      · simp only [e] at h
        obtain ⟨items, hr⟩ := ih h
        refine ⟨(b :: q).take n :: items, ?_⟩
        have hl : ((b :: q).take n).length = n := by rw [List.length_take]; omega
        have ht : (b :: q).take n ++ (b :: q).drop n = b :: q := List.take_append_drop _ _
        have st := Run.step pos s s1 s' ((b :: q).take n) ((b :: q).drop n) q' items
          (by intro h0; rw [h0] at hl; simp at hl; omega) (by rw [ht, hl]; exact e) (by rw [hl]; exact hr)
        rwa [ht] at st

theorem run_flatten {sys : Sys} {root : Node} {env : Nat → Env} {isEof : Bool} {pos : Nat} {s : St}
    {q : List Nat} {s' : St} {q' : List Nat} {items : List (List Nat)}
    (h : Run sys root env isEof pos s q items s' q') :
    q = items.flatten ++ q' ∧ (∀ i ∈ items, i ≠ []) ∧
    (q' = [] ∨ scanInput sys root (env (pos + items.flatten.length)) s' q' isEof = .incomplete) := by
  induction h with
  | done pos s => simp
  | pending pos s queue h => simp [h]
  | step pos s s1 s2 item queue rest items hi h hr ih =>
    obtain ⟨h1, h2, h3⟩ := ih
    refine ⟨by simp [← h1], ?_, ?_⟩
    · intro i hm
      rcases List.mem_cons.1 hm with rfl | hm
      · exact hi
      · exact h2 i hm
    · simpa [Nat.add_assoc] using h3

/-- **C08, continued.**  Writing input always succeeds: the pending bytes and the new ones are cut, in
order and without gap or overlap, into non-empty items, each handled by exactly one step, and what stays
pending is an incomplete sequence. -/
theorem C08_each_byte_once (sys : Sys) (root : Node) (env : Nat → Env) (now : Nat) (o : Obj)
    (input : List Nat) (h : input ≠ []) :
    ∃ o' items s', writeInput sys root env now o input = some o' ∧
      Run sys root env false o.pos o.st (o.queue ++ input) items s' o'.queue ∧
      o.queue ++ input = items.flatten ++ o'.queue ∧ (∀ i ∈ items, i ≠ []) ∧
      o'.pos = o.pos + items.flatten.length ∧
      (o'.queue = [] ∨ scanInput sys root (env o'.pos) s' o'.queue false = .incomplete) ∧
      events o'.st.out = events (s'.out ++ s'.records.map .record) := by
  obtain ⟨s', q', o', e1, e2, e3, e4, e5, _, e7⟩ := writeInput_spec sys root env now o input h
  obtain ⟨items, hrun⟩ := run_of_loop e2
  obtain ⟨r1, r2, r3⟩ := run_flatten hrun
  subst e4
  have hpos : o'.pos = o.pos + items.flatten.length := by
    rw [e5, r1]; simp
  refine ⟨o', items, s', e1, hrun, r1, r2, hpos, by rw [hpos]; exact r3, ?_⟩
  have := ((R_iff _ _).1 e3).2.2.2.2.2.2.2
  simpa [e7, events] using this

/-- Beside C08: Ctrl-C, then a lone ESC. -/
example (sys : Sys) (root : Node) :
    ∃ o', writeInput sys root (fun _ => ⟨1, 0, 500⟩) 5 {} [3, 27] = some o' ∧ o'.queue = [27] ∧
      o'.st.out = [.ctrlC, .dsr] :=
  ⟨_, rfl, rfl, rfl⟩

end Winpty.Props
