import Verif.Model.Terminal
import Verif.Spec.Screen
import Verif.Spec.Utf
import Verif.Lemmas.Unicode

/-! # How the emulator reads the sequences the agent writes -/
namespace Winpty.Terminal

open Winpty.Spec Winpty.Spec.Vt Winpty.Spec.Screen

theorem and_bit (a i : Nat) : (a &&& 2 ^ i ≠ 0) ↔ a.testBit i = true := by
  constructor
  · intro h
    obtain ⟨j, hj⟩ := Nat.exists_testBit_of_ne_zero h
    rw [Nat.testBit_and, Nat.testBit_two_pow] at hj
    simp only [Bool.and_eq_true, decide_eq_true_eq] at hj
    rw [hj.2]; exact hj.1
  · intro h h0
    have : (a &&& 2 ^ i).testBit i = true := by
      rw [Nat.testBit_and, h, Nat.testBit_two_pow_self]; rfl
    rw [h0] at this
    simp at this

section
variable (cfg : Cfg)

theorem feed_append (e : Emu) (a b : List Nat) : feed cfg e (a ++ b) = feed cfg (feed cfg e a) b :=
  List.foldl_append ..

theorem feed_nil (e : Emu) : feed cfg e [] = e := rfl

theorem feed_cons (e : Emu) (b : Nat) (bs : List Nat) :
    feed cfg e (b :: bs) = feed cfg (byte cfg e b) bs := rfl

theorem ground_eta {e : Emu} (h : e.parse = .ground) : { e with parse := .ground } = e := by
  cases e; simp only at h; subst h; rfl

theorem feed_csi {e : Emu} (h : e.parse = .ground) (rest : List Nat) :
    feed cfg e (csi ++ rest) = feed cfg { e with parse := .csi false [] 0 } rest := by
  simp only [csi, List.cons_append, List.nil_append, feed_cons]
  congr 1
  have : byte cfg e 0x1b = { e with parse := .esc } := by simp [byte, h, groundByte]
  rw [this]; simp [byte]

/-! ## Numbers -/

def foldDigits (cur : Nat) (ds : List Nat) : Nat := ds.foldl (fun c b => c * 10 + (b - 0x30)) cur

theorem outUIntLoop_spec (fuel n : Nat) (hf : n < fuel) (acc : List Nat) :
    ∃ ds, outUIntLoop fuel n acc = ds ++ acc ∧ (∀ d ∈ ds, 0x30 ≤ d ∧ d ≤ 0x39) ∧
      foldDigits 0 ds = n ∧ ds ≠ [] := by
  induction fuel generalizing n acc with
  | zero => omega
  | succ fuel ih =>
    simp only [outUIntLoop]
    by_cases h : n / 10 ≠ 0
    · rw [if_pos h]
      obtain ⟨ds, h1, h2, h3, _⟩ := ih (n / 10) (by omega) ((0x30 + n % 10) :: acc)
      refine ⟨ds ++ [0x30 + n % 10], by rw [h1]; simp, ?_, ?_, by simp⟩
      · intro d hd
        rcases List.mem_append.mp hd with hd | hd
        · exact h2 d hd
        · simp only [List.mem_singleton] at hd; omega
      · unfold foldDigits at h3 ⊢
        rw [List.foldl_append, h3]
        simp only [List.foldl_cons, List.foldl_nil]
        omega
    · rw [if_neg h]
      refine ⟨[0x30 + n % 10], rfl, ?_, ?_, by simp⟩
      · intro d hd; simp only [List.mem_singleton] at hd; omega
      · simp only [foldDigits, List.foldl_cons, List.foldl_nil]; omega

theorem outUInt_spec (n : Nat) :
    (∀ d ∈ outUInt n, 0x30 ≤ d ∧ d ≤ 0x39) ∧ foldDigits 0 (outUInt n) = n ∧ outUInt n ≠ [] := by
  obtain ⟨ds, h1, h2, h3, h4⟩ := outUIntLoop_spec (n + 1) n (by omega) []
  unfold outUInt
  rw [h1, List.append_nil]
  exact ⟨h2, h3, h4⟩

theorem feed_digits (ds : List Nat) (hd : ∀ d ∈ ds, 0x30 ≤ d ∧ d ≤ 0x39) (e : Emu) (p : Bool)
    (done : List Nat) (cur : Nat) :
    feed cfg { e with parse := .csi p done cur } ds
      = { e with parse := .csi p done (foldDigits cur ds) } := by
  induction ds generalizing cur with
  | nil => rfl
  | cons d ds ih =>
    rw [feed_cons]
    have : byte cfg { e with parse := .csi p done cur } d
        = { e with parse := .csi p done (cur * 10 + (d - 0x30)) } := by
      simp only [byte]
      rw [if_pos (hd d (List.mem_cons_self ..))]
    rw [this, ih (fun x hx => hd x (List.mem_cons_of_mem _ hx))]
    rfl

theorem feed_outUInt (n : Nat) (e : Emu) (p : Bool) (done : List Nat) (rest : List Nat) :
    feed cfg { e with parse := .csi p done 0 } (outUInt n ++ rest)
      = feed cfg { e with parse := .csi p done n } rest := by
  obtain ⟨h1, h2, _⟩ := outUInt_spec n
  rw [feed_append, feed_digits cfg _ h1, h2]

/-- Parameters after the first one, each preceded by a semicolon. -/
def paramsBytes (ps : List Nat) : List Nat := ps.flatMap fun p => 0x3b :: outUInt p

theorem paramsBytes_append (a b : List Nat) : paramsBytes (a ++ b) = paramsBytes a ++ paramsBytes b := by
  simp [paramsBytes]

theorem feed_params (ps : List Nat) (e : Emu) (done : List Nat) (cur final : Nat)
    (hf : 0x40 ≤ final ∧ final ≤ 0x7e) :
    feed cfg { e with parse := .csi false done cur } (paramsBytes ps ++ [final])
      = dispatch cfg { e with parse := .ground } false ((cur :: done).reverse ++ ps) final := by
  induction ps generalizing done cur with
  | nil =>
    simp only [paramsBytes, List.flatMap_nil, List.nil_append, feed_cons, feed_nil, List.append_nil]
    simp only [byte]
    rw [if_neg (by omega), if_neg (by omega), if_neg (by omega), if_pos hf]
  | cons p ps ih =>
    simp only [paramsBytes, List.flatMap_cons, List.cons_append, List.append_assoc, feed_cons]
    have : byte cfg { e with parse := .csi false done cur } 0x3b
        = { e with parse := .csi false (cur :: done) 0 } := by simp [byte]
    rw [this, feed_outUInt]
    have := ih (cur :: done) p
    simp only [paramsBytes] at this
    rw [this]
    simp

/-- A control sequence with one parameter. -/
theorem feed_csi1 {e : Emu} (h : e.parse = .ground) (n final : Nat)
    (hf : 0x40 ≤ final ∧ final ≤ 0x7e) :
    feed cfg e (csi ++ outUInt n ++ [final]) = dispatch cfg e false [n] final := by
  rw [List.append_assoc, feed_csi cfg h, feed_outUInt]
  have := feed_params cfg [] e [] n final hf
  simp only [paramsBytes, List.flatMap_nil, List.nil_append] at this
  rw [this, ground_eta h]
  rfl

theorem outUInt_25 : [0x32, 0x35] = outUInt 25 := by decide
theorem outUInt_0 : [0x30] = outUInt 0 := by decide
theorem outUInt_2 : [0x32] = outUInt 2 := by decide

/-- A private mode sequence. -/
theorem feed_priv {e : Emu} (h : e.parse = .ground) (n final : Nat)
    (hf : 0x40 ≤ final ∧ final ≤ 0x7e) :
    feed cfg e (csi ++ 0x3f :: (outUInt n ++ [final])) = dispatch cfg e true [n] final := by
  rw [feed_csi cfg h, feed_cons]
  have : byte cfg { e with parse := .csi false [] 0 } 0x3f = { e with parse := .csi true [] 0 } := by
    simp [byte]
  rw [this, feed_outUInt, feed_cons, feed_nil]
  simp only [byte]
  rw [if_neg (by omega), if_neg (by omega), if_neg (by omega), if_pos hf, ground_eta h]
  rfl

theorem feed_hide {e : Emu} (h : e.parse = .ground) :
    feed cfg e (csi ++ [0x3f, 0x32, 0x35, 0x6c]) = { e with cursorVisible := false } := by
  have := feed_priv cfg h 25 0x6c (by decide)
  rw [← outUInt_25] at this
  exact this

theorem feed_show {e : Emu} (h : e.parse = .ground) :
    feed cfg e (csi ++ [0x3f, 0x32, 0x35, 0x68]) = { e with cursorVisible := true } := by
  have := feed_priv cfg h 25 0x68 (by decide)
  rw [← outUInt_25] at this
  exact this

theorem feed_eraseLine {e : Emu} (h : e.parse = .ground) :
    feed cfg e (csi ++ [0x30, 0x4b]) =
      { e with rows := fun r k => if r = e.row ∧ min e.col (cfg.width - 1) ≤ k then .erased e.gfx.bg
                                else e.rows r k } := by
  have := feed_csi1 cfg h 0 0x4b (by decide)
  rw [← outUInt_0] at this
  exact this

theorem feed_cr {e : Emu} (h : e.parse = .ground) : feed cfg e [0x0d] = { e with col := 0 } := by
  simp [feed_cons, feed_nil, byte, h, groundByte, Vt.control]

theorem feed_crlf {e : Emu} (h : e.parse = .ground) :
    feed cfg e [0x0d, 0x0a] = lineFeed cfg { e with col := 0 } := by
  rw [show ([0x0d, 0x0a] : List Nat) = [0x0d] ++ [0x0a] from rfl, feed_append, feed_cr cfg h]
  simp [feed_cons, feed_nil, byte, h, groundByte, Vt.control]

theorem feed_up {e : Emu} (h : e.parse = .ground) (n : Nat) :
    feed cfg e ([0x0d] ++ csi ++ outUInt n ++ [0x41]) =
      { e with col := 0, row := max e.top (e.row - max n 1) } := by
  rw [List.append_assoc, List.append_assoc, feed_append, feed_cr cfg h, ← List.append_assoc,
    feed_csi1 cfg (by exact h) n 0x41 (by decide)]
  rfl

theorem feed_column {e : Emu} (h : e.parse = .ground) (c : Int) (hc : 0 ≤ c)
    (hw : c < cfg.width) :
    feed cfg e (csi ++ formatInt (c + 1) ++ [0x47]) = { e with col := c.toNat } := by
  simp only [formatInt]
  rw [if_neg (by omega), feed_csi1 cfg h _ 0x47 (by decide)]
  simp only [dispatch]
  simp only [Bool.false_eq_true, if_false, List.headD_cons]
  rw [if_neg (by decide), if_pos trivial]
  congr 1
  omega

theorem feed_clear {e : Emu} (h : e.parse = .ground) (hh : 1 ≤ cfg.height) (hw : 1 ≤ cfg.width) :
    feed cfg e (csi ++ [0x30, 0x6d] ++ csi ++ [0x31, 0x3b, 0x31, 0x48] ++ csi ++ [0x32, 0x4a]) =
      { e with rows := fun r k => if e.top ≤ r ∧ r < e.top + cfg.height then .erased none
                                else e.rows r k
               gfx := Gfx.default
               row := e.top
               col := 0 } := by
  have e1 : feed cfg e (csi ++ [0x30, 0x6d]) = { e with gfx := Gfx.default } := by
    have := feed_csi1 cfg h 0 0x6d (by decide)
    rw [← outUInt_0] at this
    exact this
  have e2 : ∀ e : Emu, e.parse = .ground →
      feed cfg e (csi ++ [0x31, 0x3b, 0x31, 0x48]) = { e with row := e.top, col := 0 } := by
    intro e h
    have h1 : ([0x31, 0x3b, 0x31, 0x48] : List Nat) = outUInt 1 ++ (paramsBytes [1] ++ [0x48]) := by
      decide
    rw [h1, feed_csi cfg h, feed_outUInt, feed_params cfg _ _ _ _ _ (by decide), ground_eta h]
    simp only [dispatch]
    simp only [Bool.false_eq_true, if_false, List.headD_cons, List.reverse_cons, List.reverse_nil,
      List.nil_append, List.cons_append, List.tail_cons]
    rw [if_neg (by decide), if_neg (by decide), if_pos trivial]
    have a1 : min (max 1 1) cfg.height - 1 = 0 := by omega
    have a2 : min (max 1 1) cfg.width - 1 = 0 := by omega
    rw [a1, a2]
    simp
  have e3 : ∀ e : Emu, e.parse = .ground → feed cfg e (csi ++ [0x32, 0x4a]) =
      { e with rows := fun r k => if e.top ≤ r ∧ r < e.top + cfg.height then .erased e.gfx.bg
                                else e.rows r k } := by
    intro e h
    have := feed_csi1 cfg h 2 0x4a (by decide)
    rw [← outUInt_2] at this
    exact this
  have ea : ∀ a b c d f g : List Nat,
      a ++ b ++ c ++ d ++ f ++ g = (a ++ b) ++ ((c ++ d) ++ (f ++ g)) := by
    intro a b c d f g; simp only [List.append_assoc]
  rw [ea, feed_append, feed_append, e1, e2 _ (by exact h), e3 _ (by exact h)]
  rfl

/-! ## Characters -/

theorem feed_utf8 {e : Emu} (h : e.parse = .ground) (c : Nat) (hs : IsScalar c) (hp : Printable c) :
    feed cfg e (utf8 c) = print cfg e c := by
  unfold Printable at hp
  unfold IsScalar at hs
  simp only [utf8]
  by_cases h1 : c < 0x80
  · rw [if_pos h1, feed_cons, feed_nil]
    simp only [byte, h, groundByte]
    rw [if_neg (by omega), if_neg (by omega), if_pos h1]
  · rw [if_neg h1]
    by_cases h2 : c < 0x800
    · rw [if_pos h2]
      simp only [feed_cons, feed_nil]
      have b1 : byte cfg e (192 + c / 64) = { e with parse := .utf8 1 (c / 64) } := by
        simp only [byte, h, groundByte]
        rw [if_neg (by omega), if_neg (by omega), if_neg (by omega), if_pos (by omega)]
        rw [show 192 + c / 64 - 0xc0 = c / 64 by omega]
      rw [b1]
      simp only [byte]
      rw [if_pos (by omega), if_pos trivial, ground_eta h]
      rw [show c / 64 * 64 + (128 + c % 64 - 128) = c by omega]
      simp only [printWide]
      rw [if_neg (by omega)]
    · rw [if_neg h2]
      by_cases h3 : c < 0x10000
      · rw [if_pos h3]
        simp only [feed_cons, feed_nil]
        have b1 : byte cfg e (224 + c / 4096) = { e with parse := .utf8 2 (c / 4096) } := by
          simp only [byte, h, groundByte]
          rw [if_neg (by omega), if_neg (by omega), if_neg (by omega), if_neg (by omega),
            if_pos (by omega)]
          rw [show 224 + c / 4096 - 0xe0 = c / 4096 by omega]
        have b2 : byte cfg { e with parse := .utf8 2 (c / 4096) } (128 + c / 64 % 64)
            = { e with parse := .utf8 1 (c / 64) } := by
          simp only [byte]
          rw [if_pos (by omega), if_neg (by omega)]
          rw [show c / 4096 * 64 + (128 + c / 64 % 64 - 128) = c / 64 by omega]
        rw [b1, b2]
        simp only [byte]
        rw [if_pos (by omega), if_pos trivial, ground_eta h]
        rw [show c / 64 * 64 + (128 + c % 64 - 128) = c by omega]
        simp only [printWide]
        rw [if_neg (by omega)]
      · rw [if_neg h3]
        simp only [feed_cons, feed_nil]
        have b1 : byte cfg e (240 + c / 262144) = { e with parse := .utf8 3 (c / 262144) } := by
          simp only [byte, h, groundByte]
          rw [if_neg (by omega), if_neg (by omega), if_neg (by omega), if_neg (by omega),
            if_neg (by omega), if_pos (by omega)]
          rw [show 240 + c / 262144 - 0xf0 = c / 262144 by omega]
        have b2 : byte cfg { e with parse := .utf8 3 (c / 262144) } (128 + c / 4096 % 64)
            = { e with parse := .utf8 2 (c / 4096) } := by
          simp only [byte]
          rw [if_pos (by omega), if_neg (by omega)]
          rw [show c / 262144 * 64 + (128 + c / 4096 % 64 - 128) = c / 4096 by omega]
        have b3 : byte cfg { e with parse := .utf8 2 (c / 4096) } (128 + c / 64 % 64)
            = { e with parse := .utf8 1 (c / 64) } := by
          simp only [byte]
          rw [if_pos (by omega), if_neg (by omega)]
          rw [show c / 4096 * 64 + (128 + c / 64 % 64 - 128) = c / 64 by omega]
        rw [b1, b2, b3]
        simp only [byte]
        rw [if_pos (by omega), if_pos trivial, ground_eta h]
        rw [show c / 64 * 64 + (128 + c % 64 - 128) = c by omega]
        simp only [printWide]
        rw [if_neg (by omega)]

/-! ## Colours -/

def sgrParamList (isFore : Bool) (color : Nat) : List Nat :=
  if color &&& 8 ≠ 0 then
    [(if isFore then 30 else 40) + (color &&& 7), (if isFore then 30 else 40) + (90 - 30) + (color &&& 7)]
  else [(if isFore then 30 else 40) + color]

theorem outputSetColorSgrParams_eq (isFore : Bool) (color : Nat) :
    outputSetColorSgrParams isFore color = paramsBytes (sgrParamList isFore color) := by
  unfold outputSetColorSgrParams sgrParamList
  by_cases h : color &&& 8 ≠ 0
  · rw [if_pos h, if_pos h]; simp [paramsBytes]
  · rw [if_neg h, if_neg h]; simp [paramsBytes]

/-- The SGR parameters after the initial 0. -/
def setColorParams (fore back : Nat) (underscore : Bool) : List Nat :=
  (if back = 0 then
    (if fore = 7 then []
     else if fore = 15 then [1]
     else if fore = 8 then [37, 90]
     else sgrParamList true fore)
   else if back = 15 then
    [7] ++ (if fore = 7 ∨ fore = 0 then [] else sgrParamList false fore)
   else sgrParamList true fore ++ sgrParamList false back) ++
  (if fore = back then [8] else []) ++
  (if underscore then [4] else [])

theorem setColorBytes_eq (fore back : Nat) (u : Bool) :
    setColorBytes fore back u = csi ++ (outUInt 0 ++ (paramsBytes (setColorParams fore back u) ++ [0x6d])) := by
  have e7 : [0x3b, 0x37] = paramsBytes [7] := by decide
  have e1 : [0x3b, 0x31] = paramsBytes [1] := by decide
  have e8 : [0x3b, 0x38] = paramsBytes [8] := by decide
  have e4 : [0x3b, 0x34] = paramsBytes [4] := by decide
  have e9 : [0x3b, 0x33, 0x37, 0x3b, 0x39, 0x30] = paramsBytes [37, 90] := by decide
  have e0 : ([] : List Nat) = paramsBytes [] := by decide
  unfold setColorBytes setColorParams
  rw [e7, e1, e8, e4, e9, ← outUInt_0]
  simp only [outputSetColorSgrParams_eq, paramsBytes_append]
  conv => rhs; simp only [apply_ite paramsBytes, paramsBytes_append]
  simp only [← e0, List.append_assoc]

/-- The rendition after the colour sequence. -/
def colorGfx (fore back : Nat) (u : Bool) : Gfx :=
  (setColorParams fore back u).foldl sgr Gfx.default

theorem feed_setColor {e : Emu} (h : e.parse = .ground) (fore back : Nat) (u : Bool) :
    feed cfg e (setColorBytes fore back u) = { e with gfx := colorGfx fore back u } := by
  rw [setColorBytes_eq, feed_csi cfg h, feed_outUInt, feed_params cfg _ _ _ _ _ (by decide),
    ground_eta h]
  rfl

/-- The rendition for a colour attribute. -/
def gfxOf (a : Nat) : Gfx := colorGfx (wantFore a) (wantBack a) (wantUnderline a)

theorem foreOf_eq (a : Nat) : foreOf (a &&& colorAttributeMask) = attrFore a := by
  have b : ∀ i, i < 4 → ((a &&& colorAttributeMask) &&& 2 ^ i ≠ 0 ↔ a.testBit i = true) := by
    intro i hi
    rw [and_bit, Nat.testBit_and]
    have : colorAttributeMask.testBit i = true := by
      rcases i with _ | _ | _ | _ | i <;> first | decide | omega
    rw [this, Bool.and_true]
  have b0 := b 0 (by omega)
  have b1 := b 1 (by omega)
  have b2 := b 2 (by omega)
  have b3 := b 3 (by omega)
  simp only [Nat.reducePow] at b0 b1 b2 b3
  unfold foreOf attrFore palette
  simp only [b0, b1, b2, b3]
  cases a.testBit 0 <;> cases a.testBit 1 <;> cases a.testBit 2 <;> cases a.testBit 3 <;> rfl

theorem backOf_eq (a : Nat) : backOf (a &&& colorAttributeMask) = attrBack a := by
  have b : ∀ i, i < 4 → ((a &&& colorAttributeMask) &&& 2 ^ (i + 4) ≠ 0 ↔ a.testBit (i + 4) = true) := by
    intro i hi
    rw [and_bit, Nat.testBit_and]
    have : colorAttributeMask.testBit (i + 4) = true := by
      rcases i with _ | _ | _ | _ | i <;> first | decide | omega
    rw [this, Bool.and_true]
  have b0 := b 0 (by omega)
  have b1 := b 1 (by omega)
  have b2 := b 2 (by omega)
  have b3 := b 3 (by omega)
  simp only [Nat.reducePow, Nat.reduceAdd] at b0 b1 b2 b3
  unfold backOf attrBack palette
  simp only [b0, b1, b2, b3]
  cases a.testBit 4 <;> cases a.testBit 5 <;> cases a.testBit 6 <;> cases a.testBit 7 <;> rfl

theorem outputSetColor_eq (a : Nat) :
    outputSetColor (a &&& colorAttributeMask) =
      setColorBytes (wantFore a) (wantBack a) (wantUnderline a) := by
  have b14 : ((a &&& colorAttributeMask) &&& 0x4000 ≠ 0 ↔ a.testBit 14 = true) := by
    have := and_bit (a &&& colorAttributeMask) 14
    rw [Nat.testBit_and, show colorAttributeMask.testBit 14 = true by decide, Bool.and_true] at this
    exact this
  have b15 : ((a &&& colorAttributeMask) &&& 0x8000 ≠ 0 ↔ a.testBit 15 = true) := by
    have := and_bit (a &&& colorAttributeMask) 15
    rw [Nat.testBit_and, show colorAttributeMask.testBit 15 = true by decide, Bool.and_true] at this
    exact this
  unfold outputSetColor wantFore wantBack wantUnderline
  rw [foreOf_eq, backOf_eq]
  simp only [b14, b15]
  by_cases h : a.testBit 14 = true
  · rw [if_pos h, if_pos h, if_pos h]; simp
  · rw [if_neg h, if_neg h, if_neg h]; simp

theorem feed_outputSetColor {e : Emu} (h : e.parse = .ground) (a : Nat) :
    feed cfg e (outputSetColor (a &&& colorAttributeMask)) = { e with gfx := gfxOf a } := by
  rw [outputSetColor_eq, feed_setColor cfg h]; rfl

end

/-- The rendition depends on the colour bits only. -/
theorem gfxOf_mask (a b : Nat) (h : a &&& colorAttributeMask = b &&& colorAttributeMask) :
    gfxOf a = gfxOf b := by
  have hb : ∀ i, colorAttributeMask.testBit i = true → a.testBit i = b.testBit i := by
    intro i hi
    have : (a &&& colorAttributeMask).testBit i = (b &&& colorAttributeMask).testBit i := by rw [h]
    rwa [Nat.testBit_and, Nat.testBit_and, hi, Bool.and_true, Bool.and_true] at this
  unfold gfxOf wantFore wantBack wantUnderline
  rw [← foreOf_eq, ← backOf_eq, ← foreOf_eq, ← backOf_eq, h, hb 14 (by decide), hb 15 (by decide)]

/-- What the rendition for two colours looks like. -/
def Looks (g : Gfx) (fore back : Nat) (u : Bool) : Prop :=
  textInk g = (if back = black ∧ (fore = ltGray ∨ fore = white) then .defaultFore
    else if back = white ∧ (fore = ltGray ∨ fore = black) then .defaultBack
    else .palette fore) ∧
  backInk g = (if back = black then .defaultBack else if back = white then .defaultFore
    else .palette back) ∧
  g.bold = decide (back = black ∧ fore = white) ∧
  g.underline = u ∧ g.conceal = decide (fore = back) ∧
  (back ≠ white → (match g.bg with | some n => Ink.palette n | none => .defaultBack)
    = (if back = black then .defaultBack else if back = white then .defaultFore
       else .palette back))

instance (g : Gfx) (f b : Nat) (u : Bool) : Decidable (Looks g f b u) := by
  unfold Looks; infer_instance

/-- Every pair of colours, with and without underline. -/
theorem looks_check : ∀ f : Fin 16, ∀ b : Fin 16, ∀ u : Bool,
    Looks (colorGfx f.val b.val u) f.val b.val u := by
  decide +kernel

theorem palette_lt (a b c d : Bool) : palette a b c d < 16 := by
  cases a <;> cases b <;> cases c <;> cases d <;> decide

theorem wantFore_lt (a : Nat) : wantFore a < 16 := by
  unfold wantFore attrFore attrBack; split <;> exact palette_lt ..

theorem wantBack_lt (a : Nat) : wantBack a < 16 := by
  unfold wantBack attrFore attrBack; split <;> exact palette_lt ..

theorem gfxOf_looks (a : Nat) : Looks (gfxOf a) (wantFore a) (wantBack a) (wantUnderline a) :=
  looks_check ⟨_, wantFore_lt a⟩ ⟨_, wantBack_lt a⟩ _

theorem gfxOf_renders (a : Nat) : Renders (gfxOf a) a := by
  obtain ⟨h1, h2, h3, h4, h5, _⟩ := gfxOf_looks a
  exact ⟨h1, h2, h3, h4, h5⟩

end Winpty.Terminal
