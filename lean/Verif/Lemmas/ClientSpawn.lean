import Verif.Lemmas.ClientReply

/-! Lemmas about `winpty_spawn` as a whole: its three ways to return, and the handles it takes. -/
namespace Winpty.Client
open Winpty.Spec Winpty.Spec.Client
open Winpty.Buffer (Field)

theorem spawn_returned {cfg : Cfg} {we : Bool} {s s' : Session} {w w' : World} {c : SpawnConfig}
    {o : SpawnOut} {r : Ret} (hs : s.connected = true)
    (h : call cfg we s w (.spawn c o) = .returned r s' w') :
    (∃ o', spawnBody cfg s c (resetOut o) w = .ok (.ok o') w' ∧ r = ⟨1, none, [], o'⟩ ∧ s' = s) ∨
    (∃ code, spawnBody cfg s c (resetOut o) w = .ok (.error code) w' ∧
      r = ⟨0, if we then some ⟨2, "CreateProcess failed"⟩ else none, [],
        ⟨o.process.map fun _ => 0, o.thread.map fun _ => 0, o.createError.map fun _ => code⟩⟩ ∧ s' = s) ∨
    (∃ e w1, spawnBody cfg s c (resetOut o) w = .throw e w1 ∧ w' = w1.add [.closePipe] ∧
      r = ⟨0, if we then some (translateException e) else none, [], resetOut o⟩ ∧
      s' = { s with connected := false }) := by
  simp only [call, spawn, rpcOperation, hs, if_true] at h
  generalize spawnBody cfg s c (resetOut o) w = b at *
  cases b with
  | ok x w1 =>
    cases x with
    | ok o' =>
      simp only [R.bind, spawnResult, Done1.returned.injEq] at h
      obtain ⟨rfl, rfl, rfl⟩ := h
      exact .inl ⟨o', rfl, rfl, rfl⟩
    | error code =>
      simp only [R.bind, spawnResult, Done1.returned.injEq] at h
      obtain ⟨rfl, rfl, rfl⟩ := h
      exact .inr (.inl ⟨code, rfl, rfl, rfl⟩)
  | throw e w1 =>
    simp only [R.bind, Done1.returned.injEq] at h
    obtain ⟨rfl, rfl, rfl⟩ := h
    exact .inr (.inr ⟨e, w1, rfl, rfl, rfl, rfl⟩)
  | abort w1 => simp only [R.bind] at h; cases h
  | wait w1 => simp only [R.bind] at h; cases h

theorem spawnBody_eq (cfg : Cfg) (s : Session) (c : SpawnConfig) (o : SpawnOut) (w : World) :
    spawnBody cfg s c o w = ((writePacket w (spawnFields s c o)).bind fun _ w => readPacket cfg w).bind
      fun reply w => spawnReply cfg w o reply := by
  unfold spawnBody
  generalize spawnFields s c o = fs
  rw [bind_assoc]

theorem stolen_append (a b : List Event) : stolen (a ++ b) = stolen a ++ stolen b := by
  induction a with
  | nil => rfl
  | cons e es ih => cases e <;> simp [stolen, ih]

theorem closed_append (a b : List Event) : closed (a ++ b) = closed a ++ closed b := by
  induction a with
  | nil => rfl
  | cons e es ih => cases e <;> simp [closed, ih]

/-- What is known of a computation that handles no handles. -/
def Quiet (w : World) {α : Type} : R α → Prop
  | .ok _ w' => ∃ es, w'.log = w.log ++ es ∧ stolen es = [] ∧ closed es = [] ∧ w'.dups = w.dups
  | .throw _ w' => ∃ es, w'.log = w.log ++ es ∧ stolen es = [] ∧ closed es = [] ∧ w'.dups = w.dups
  | .abort _ => True
  | .wait _ => True

theorem quiet_bind {α β : Type} {w : World} {r : R α} {f : α → World → R β} (h : Quiet w r)
    (hf : ∀ a w', r = .ok a w' → Quiet w' (f a w')) : Quiet w (r.bind f) := by
  have join : ∀ {w1 w2 : World}, (∃ es, w1.log = w.log ++ es ∧ stolen es = [] ∧ closed es = [] ∧ w1.dups = w.dups) →
      (∃ es, w2.log = w1.log ++ es ∧ stolen es = [] ∧ closed es = [] ∧ w2.dups = w1.dups) →
      ∃ es, w2.log = w.log ++ es ∧ stolen es = [] ∧ closed es = [] ∧ w2.dups = w.dups := by
    rintro w1 w2 ⟨e1, a1, a2, a3, a4⟩ ⟨e2, b1, b2, b3, b4⟩
    exact ⟨e1 ++ e2, by rw [b1, a1, List.append_assoc], by simp [stolen_append, a2, b2],
      by simp [closed_append, a3, b3], by rw [b4, a4]⟩
  cases r with
  | ok a w1 =>
    have := hf a w1 rfl
    simp only [R.bind]
    generalize f a w1 = r' at *
    cases r' with
    | ok b w2 => exact join h this
    | throw e w2 => exact join h this
    | abort w2 => trivial
    | wait w2 => trivial
  | throw e w1 => exact h
  | abort w1 => trivial
  | wait w1 => trivial

theorem quiet_here {α : Type} {w : World} {a : α} {es : List Event} (h1 : stolen es = []) (h2 : closed es = []) :
    Quiet w (.ok a (w.add es) : R α) := ⟨es, rfl, h1, h2, rfl⟩

theorem quiet_pure {α : Type} {w : World} {a : α} : Quiet w (.ok a w : R α) := ⟨[], by simp, rfl, rfl, rfl⟩

theorem quiet_throw {α : Type} {w : World} {e : Exn} : Quiet w (.throw e w : R α) := ⟨[], by simp, rfl, rfl, rfl⟩

theorem overlapped_quiet (w : World) (ev : Event) (h1 : stolen [ev] = []) (h2 : closed [ev] = []) :
    Quiet w (overlapped w ev) := by
  have e1 : ∀ es, stolen (ev :: es) = stolen es := by
    intro es; rw [← List.singleton_append, stolen_append, h1, List.nil_append]
  have e2 : ∀ es, closed (ev :: es) = closed es := by
    intro es; rw [← List.singleton_append, closed_append, h2, List.nil_append]
  unfold overlapped
  split
  · trivial
  · exact ⟨[ev], rfl, h1, h2, rfl⟩
  · unfold handlePendingIo
    split
    · exact ⟨[ev, .pending, .reaped], by simp [World.add], by rw [e1]; rfl, by rw [e2]; rfl, rfl⟩
    · exact ⟨[ev, .pending, .cancel, .reaped], by simp [World.add], by rw [e1]; rfl, by rw [e2]; rfl, rfl⟩
    · exact ⟨[ev, .pending, .cancel, .reaped], by simp [World.add], by rw [e1]; rfl, by rw [e2]; rfl, rfl⟩
    · exact ⟨[ev, .pending, .cancel, .reaped], by simp [World.add], by rw [e1]; rfl, by rw [e2]; rfl, rfl⟩
    · trivial

theorem writePacket_quiet (w : World) (fs : List Field) : Quiet w (writePacket w fs) := by
  unfold writePacket
  split
  · trivial
  · unfold writeData
    refine quiet_bind (overlapped_quiet w _ rfl rfl) ?_
    intro d w' _
    split
    · exact quiet_throw
    · split
      · exact quiet_here rfl rfl
      · trivial

theorem readData_quiet (w : World) (n : Nat) : Quiet w (readData w n) := by
  unfold readData
  refine quiet_bind (overlapped_quiet w _ rfl rfl) ?_
  intro d w' _
  split
  · exact quiet_throw
  · split
    · exact quiet_here rfl rfl
    · trivial

theorem readLoop_quiet (fuel : Nat) : ∀ (w : World) (n : Nat), Quiet w (readLoop fuel w n) := by
  induction fuel with
  | zero => intro w n; trivial
  | succ fuel ih =>
    intro w n
    unfold readLoop
    split
    · refine quiet_bind (readData_quiet w n) ?_
      intro _ w1 _
      refine quiet_bind (ih w1 _) ?_
      intro _ w2 _
      exact quiet_pure
    · exact quiet_pure

theorem readPacket_quiet (cfg : Cfg) (w : World) : Quiet w (readPacket cfg w) := by
  unfold readPacket
  refine quiet_bind (readLoop_quiet _ w 8) ?_
  intro sz w1 _
  split
  · exact quiet_throw
  · split
    · exact readLoop_quiet _ w1 _
    · exact quiet_throw

theorem exchange_quiet (cfg : Cfg) (w : World) (fs : List Field) :
    Quiet w ((writePacket w fs).bind fun _ w => readPacket cfg w) :=
  quiet_bind (writePacket_quiet w fs) fun _ w1 _ => readPacket_quiet cfg w1

/-! ## The handles -/

/-- The handles taken, given back and kept. -/
def Balanced (w w' : World) (keep : List Int) : Prop :=
  ∃ es, w'.log = w.log ++ es ∧ (stolen es).Perm (closed es ++ keep)

theorem stealHandle_cases {w w' : World} {remote h : Int} (hr : stealHandle w remote = .ok h w') :
    (remote = 0 ∧ h = 0 ∧ w' = w) ∨
    (remote ≠ 0 ∧ w.dups = .ok h :: w'.dups ∧ w'.ios = w.ios ∧ w'.log = w.log ++ [.steal remote h]) := by
  unfold stealHandle at hr
  split at hr
  · cases hr; exact .inl ⟨by assumption, rfl, rfl⟩
  · split at hr
    · cases hr
    · rename_i hne _ _ _ hd
      cases hr
      exact .inr ⟨hne, hd, rfl, rfl⟩
    · cases hr

theorem stealHandle_throw {w w' : World} {remote : Int} {e : Exn} (hr : stealHandle w remote = .throw e w') :
    w'.log = w.log := by
  unfold stealHandle at hr
  split at hr
  · cases hr
  · split at hr <;> cases hr <;> rfl

theorem stealHandle_total (w : World) (remote : Int) :
    (∃ h w', stealHandle w remote = .ok h w') ∨ ∃ e w', stealHandle w remote = .throw e w' := by
  unfold stealHandle
  split
  · exact .inl ⟨_, _, rfl⟩
  · split
    · exact .inr ⟨_, _, rfl⟩
    · exact .inl ⟨_, _, rfl⟩
    · exact .inr ⟨_, _, rfl⟩

theorem takeHandles_balanced {cfg : Cfg} {w : World} {o : SpawnOut} {p t : Int}
    (hd : ∀ h, Except.ok h ∈ w.dups → h ≠ 0) :
    match takeHandles cfg w o p t with
    | .ok o' w' => Balanced w w' (kept o')
    | .throw _ w' => Balanced w w' []
    | .abort _ => False
    | .wait _ => False := by
  unfold takeHandles
  rcases stealHandle_total w (handleFromInt64 cfg p) with ⟨hp, w1, h1⟩ | ⟨e, w1, h1⟩
  · rw [h1]
    simp only [R.bind]
    have hw1 : (∃ es, w1.log = w.log ++ es ∧ closed es = [] ∧ stolen es = if hp = 0 then [] else [hp]) ∧
        ∀ h, Except.ok h ∈ w1.dups → h ≠ 0 := by
      rcases stealHandle_cases h1 with ⟨_, rfl, rfl⟩ | ⟨_, k2, _, k4⟩
      · exact ⟨⟨[], by simp, rfl, rfl⟩, hd⟩
      · have hne : hp ≠ 0 := hd hp (by rw [k2]; simp)
        refine ⟨⟨_, k4, rfl, by simp [stolen, hne]⟩, ?_⟩
        intro h hm
        exact hd h (by rw [k2]; simp [hm])
    obtain ⟨⟨es1, a1, a2, a3⟩, hd1⟩ := hw1
    rcases stealHandle_total w1 (handleFromInt64 cfg t) with ⟨ht, w2, h2⟩ | ⟨e, w2, h2⟩
    · rw [h2]
      have hw2 : ∃ es, w2.log = w1.log ++ es ∧ closed es = [] ∧ stolen es = if ht = 0 then [] else [ht] := by
        rcases stealHandle_cases h2 with ⟨_, rfl, rfl⟩ | ⟨_, k2, _, k4⟩
        · exact ⟨[], by simp, rfl, rfl⟩
        · have hne : ht ≠ 0 := hd1 ht (by rw [k2]; simp)
          exact ⟨_, k4, rfl, by simp [stolen, hne]⟩
      obtain ⟨es2, b1, b2, b3⟩ := hw2
      cases hop : o.process <;> cases hot : o.thread <;>
        simp only [Option.isSome, Option.map_none, Option.map_some, Bool.false_eq_true, if_true, if_false, dropHandle] <;>
        by_cases z1 : hp = 0 <;> by_cases z2 : ht = 0 <;> simp only [z1, z2, if_true, if_false] at a3 b3 ⊢
      all_goals
        first
        | (refine ⟨es1 ++ es2, ?_, ?_⟩
           · simp [World.add, b1, a1]; done
           · simp [stolen_append, closed_append, a2, a3, b2, b3, kept, closed, stolen, z1, z2] <;>
               exact List.Perm.swap _ _ _)
        | (refine ⟨es1 ++ es2 ++ [.closeHandle ht], ?_, ?_⟩
           · simp [World.add, b1, a1]; done
           · simp [stolen_append, closed_append, a2, a3, b2, b3, kept, closed, stolen, z1, z2] <;>
               exact List.Perm.swap _ _ _)
        | (refine ⟨es1 ++ es2 ++ [.closeHandle hp], ?_, ?_⟩
           · simp [World.add, b1, a1]; done
           · simp [stolen_append, closed_append, a2, a3, b2, b3, kept, closed, stolen, z1, z2] <;>
               exact List.Perm.swap _ _ _)
        | (refine ⟨es1 ++ es2 ++ [.closeHandle ht, .closeHandle hp], ?_, ?_⟩
           · simp [World.add, b1, a1]; done
           · simp [stolen_append, closed_append, a2, a3, b2, b3, kept, closed, stolen, z1, z2] <;>
               exact List.Perm.swap _ _ _)
    · rw [h2]
      have b1 := stealHandle_throw h2
      simp only [dropHandle]
      by_cases z1 : hp = 0
      · simp only [z1, if_true] at a3 ⊢
        exact ⟨es1, by rw [b1, a1], by simp [a2, a3]⟩
      · simp only [z1, if_false] at a3 ⊢
        exact ⟨es1 ++ [.closeHandle hp], by simp [World.add, b1, a1], by
          simp [stolen_append, closed_append, a2, a3, closed, stolen]⟩
  · rw [h1]
    simp only [R.bind]
    exact ⟨[], by simp [stealHandle_throw h1], .nil⟩

end Winpty.Client
