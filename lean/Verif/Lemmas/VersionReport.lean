import Verif.Spec.VersionReport
import Verif.Lemmas.StringBuilder

/-! Lemmas about the report about Windows. -/

namespace Winpty.VersionReport

open Winpty.Spec Winpty.Spec.VersionReport Winpty.StringBuilder

theorem dec_eq (size n : Nat) (hs : 0 < size) (h : n < 2 ^ (8 * size)) (w : World) :
    dec size n w = .ok (decimal n) w := by
  have hf : Fits size (n : Int) := by
    constructor
    · have : (0 : Int) < 2 ^ (8 * size - 1) := Int.pow_pos (by decide)
      omega
    · exact_mod_cast h
  simp only [dec, gdecOfInt, decText_eq size n hs hf, if_pos (digits_len size n hs hf)]

theorem Run.bind_ok {α β : Type} {m : Run α} {f : α → Run β} {w w' : World} {a : α} (h : m w = .ok a w') :
    Run.bind m f w = f a w' := by simp only [Run.bind, h]

theorem versionToString_parts (v : Nat) (w : World) :
    versionToString v w = .ok (dotted ((v >>> 48) % 2 ^ 16) ((v >>> 32) % 2 ^ 16) ((v >>> 16) % 2 ^ 16)
      ((v >>> 0) % 2 ^ 16)) w := by
  have k : ∀ n : Nat, n % 2 ^ 16 < 2 ^ (8 * 2) := fun n => Nat.mod_lt _ (by decide)
  rw [versionToString, Run.bind_ok (dec_eq 2 _ (by omega) (k _) w), Run.bind_ok (dec_eq 2 _ (by omega) (k _) w),
    Run.bind_ok (dec_eq 2 _ (by omega) (k _) w), Run.bind_ok (dec_eq 2 _ (by omega) (k _) w), Run.ret, dotted,
    show codes ['.'] = [46] from rfl]

theorem version_bits (a b c d : Nat) (hc : c < 2 ^ 16) (hd : d < 2 ^ 16) :
    ((a * 2 ^ 16 + b) <<< 32) ||| (c * 2 ^ 16 + d) = a * 2 ^ 48 + b * 2 ^ 32 + c * 2 ^ 16 + d := by
  have hlow : c * 2 ^ 16 + d < 2 ^ 32 := by omega
  rw [Nat.shiftLeft_eq, Nat.mul_comm, ← Nat.two_pow_add_eq_or_of_lt hlow]
  omega

theorem version_parts (v a b c d : Nat) (hv : v = a * 2 ^ 48 + b * 2 ^ 32 + c * 2 ^ 16 + d) (ha : a < 2 ^ 16)
    (hb : b < 2 ^ 16) (hc : c < 2 ^ 16) (hd : d < 2 ^ 16) :
    (v >>> 48) % 2 ^ 16 = a ∧ (v >>> 32) % 2 ^ 16 = b ∧ (v >>> 16) % 2 ^ 16 = c ∧ (v >>> 0) % 2 ^ 16 = d := by
  simp only [Nat.shiftRight_eq_div_pow]
  omega

theorem versionToString_eq (v a b c d : Nat) (ha : a < 2 ^ 16) (hb : b < 2 ^ 16) (hc : c < 2 ^ 16) (hd : d < 2 ^ 16)
    (hv : v = ((a * 2 ^ 16 + b) <<< 32) ||| (c * 2 ^ 16 + d)) (w : World) :
    versionToString v w = .ok (dotted a b c d) w := by
  obtain ⟨e1, e2, e3, e4⟩ := version_parts v a b c d (hv.trans (version_bits a b c d hc hd)) ha hb hc hd
  rw [versionToString_parts, e1, e2, e3, e4]

theorem infoText_eq (path : List Nat) (info : FileInfo) (h1 : info.fileMS < 2 ^ 32) (h2 : info.fileLS < 2 ^ 32)
    (h3 : info.productMS < 2 ^ 32) (h4 : info.productLS < 2 ^ 32) (w : World) :
    infoText path info w = .ok (path ++ codes [':', 'F', ':'] ++
        dotted (high info.fileMS) (low info.fileMS) (high info.fileLS) (low info.fileLS) ++ codes ['/', 'P', ':'] ++
        dotted (high info.productMS) (low info.productMS) (high info.productLS) (low info.productLS)) w := by
  have k : ∀ n, n < 2 ^ 32 → n = high n * 2 ^ 16 + low n ∧ high n < 2 ^ 16 ∧ low n < 2 ^ 16 := by
    intro n hn; unfold high low; omega
  obtain ⟨e1, a1, b1⟩ := k _ h1
  obtain ⟨e2, a2, b2⟩ := k _ h2
  obtain ⟨e3, a3, b3⟩ := k _ h3
  obtain ⟨e4, a4, b4⟩ := k _ h4
  have f : fileVersion info = ((high info.fileMS * 2 ^ 16 + low info.fileMS) <<< 32) |||
      (high info.fileLS * 2 ^ 16 + low info.fileLS) := by rw [← e1, ← e2]; rfl
  have p : productVersion info = ((high info.productMS * 2 ^ 16 + low info.productMS) <<< 32) |||
      (high info.productLS * 2 ^ 16 + low info.productLS) := by rw [← e3, ← e4]; rfl
  rw [infoText, Run.bind_ok (versionToString_eq _ _ _ _ _ a1 b1 a2 b2 f w),
    Run.bind_ok (versionToString_eq _ _ _ _ _ a3 b3 a4 b4 p w), Run.ret]
  simp only [show chars "F:" = codes ['F', ':'] by decide, show chars "P:" = codes ['P', ':'] by decide, codes,
    List.append_assoc, List.map_cons, List.map_nil, List.cons_append, List.nil_append,
    show Char.toNat ':' = 58 from rfl, show Char.toNat '/' = 47 from rfl]

/-- Nothing is held or lost, and only what may be loaded has been. -/
def Step (sys : Sys) (w w' : World) : Prop :=
  w'.libraries = w.libraries ∧ w'.buffers = w.buffers ∧ Record sys w.log w'.log

theorem Step.refl (sys : Sys) (w : World) : Step sys w w := ⟨rfl, rfl, [], by simp, by simp, by simp⟩

theorem Step.trans {sys : Sys} {w w' w'' : World} (h1 : Step sys w w') (h2 : Step sys w' w'') : Step sys w w'' := by
  obtain ⟨a1, b1, n1, c1, d1, e1⟩ := h1
  obtain ⟨a2, b2, n2, c2, d2, e2⟩ := h2
  refine ⟨by rw [a2, a1], by rw [b2, b1], n1 ++ n2, by rw [c2, c1, List.append_assoc], ?_, ?_⟩
  · intro name hm
    rcases List.mem_append.mp hm with hm | hm
    · exact d1 name hm
    · exact d2 name hm
  · intro f hm
    rcases List.mem_append.mp hm with hm | hm
    · exact e1 f hm
    · exact e2 f hm

theorem step_trace (sys : Sys) (w : World) (t : List Nat) :
    Step sys w { w with log := w.log ++ [.trace t] } := ⟨rfl, rfl, [.trace t], rfl, by simp, by simp⟩

theorem step_call (sys : Sys) (w : World) (f : Fn) (h : sys.present f = true) :
    Step sys w { w with log := w.log ++ [.call f] } := by
  refine ⟨rfl, rfl, [.call f], rfl, by simp, ?_⟩
  intro g hg
  simp only [List.mem_singleton, Ev.call.injEq] at hg
  rw [hg]; exact h

/-- A library that is held for a while. -/
theorem step_library (sys : Sys) (w w' : World) (name : List Nat) (hn : MayLoad sys name)
    (h : Step sys { w with libraries := name :: w.libraries, log := w.log ++ [.load name] } w') :
    Step sys w (freeLibrary name w') := by
  obtain ⟨a, b, n, c, d, e⟩ := h
  refine ⟨?_, b, [.load name] ++ n ++ [.free name], ?_, ?_, ?_⟩
  · simp [freeLibrary, a]
  · simp only [freeLibrary, c, List.append_assoc]
  · intro x hx
    simp only [List.mem_append, List.mem_singleton, Ev.load.injEq, reduceCtorEq, or_false] at hx
    rcases hx with rfl | hx
    · exact hn
    · exact d x hx
  · intro f hf
    simp only [List.mem_append, List.mem_singleton, reduceCtorEq, or_false, false_or] at hf
    exact e f hf

theorem versionDllName_eq (sys : Sys) : versionDllName sys.dir = versionDll sys := by
  simp only [versionDllName, versionDll, show chars "\\version.dll" =
    codes ['\\', 'v', 'e', 'r', 's', 'i', 'o', 'n', '.', 'd', 'l', 'l'] by decide]

/-- A function is there, or an exception is thrown. -/
theorem api_cases (sys : Sys) (f : Fn) (w : World) :
    (sys.present f = true ∧ getVersionDllApi sys f w = .ok (some f) w) ∨
    (sys.present f = false ∧ ∃ w', getVersionDllApi sys f w = .throws .winpty w' ∧ Step sys w w') := by
  cases h : sys.present f with
  | true => exact .inl ⟨rfl, by simp [getVersionDllApi, proc, h, Run.bind, Run.ret]⟩
  | false =>
    refine .inr ⟨rfl, _, ?_, step_trace sys w (chars "GetProcAddress: missing")⟩
    simp only [getVersionDllApi, proc, h, Bool.false_eq_true, if_false, Run.bind, trace, Run.ret, if_true, Run.throw]

/-- The library and its functions are there. -/
def Functions (sys : Sys) : Prop :=
  sys.present .getFileVersionInfoSize = true ∧ sys.present .getFileVersionInfo = true ∧
  sys.present .verQueryValue = true

theorem badValue_cases (sys : Sys) (path : List Nat) (w : World) :
    (∃ info, sys.queried path = true ∧ sys.value path = some info ∧ sys.valueSize path = 52 ∧
      info.signature = 4277077181 ∧ badValue sys path w = .ok false w ∧ readInfo sys path w = .ok info w) ∨
    ((¬ ∃ info, sys.queried path = true ∧ sys.value path = some info ∧ sys.valueSize path = 52 ∧
      info.signature = 4277077181) ∧ badValue sys path w = .ok true w) := by
  cases hq : sys.queried path with
  | false => exact .inr ⟨by simp, by simp [badValue, hq, Run.ret]⟩
  | true =>
    cases hv : sys.value path with
    | none => exact .inr ⟨by simp, by simp [badValue, hq, hv, Run.ret]⟩
    | some info =>
      by_cases hs : sys.valueSize path = 52
      · by_cases hg : info.signature = 4277077181
        · exact .inl ⟨info, rfl, rfl, hs, hg, by simp [badValue, readInfo, hq, hv, hs, hg, Run.bind, Run.ret],
            by simp [readInfo, hq, hv, hs]⟩
        · refine .inr ⟨?_, by simp [badValue, readInfo, hq, hv, hs, hg, Run.bind, Run.ret]⟩
          rintro ⟨i, _, e, _, e2⟩
          cases e; exact hg e2
      · exact .inr ⟨by simp [hs], by simp [badValue, hq, hv, hs, Run.ret]⟩

/-- How reading the version with a buffer ends. -/
theorem readVersion_cases (sys : Sys) (path : List Nat) (hf : Functions sys) (w : World) :
    ∃ w', Step sys w w' ∧
      ((∃ info, sys.infoRead path = true ∧ sys.queried path = true ∧ sys.value path = some info ∧
          sys.valueSize path = 52 ∧ info.signature = 4277077181 ∧
          readVersion sys path (some .getFileVersionInfo) (some .verQueryValue) w = .ok info w') ∨
       ((¬ ∃ info, sys.infoRead path = true ∧ sys.queried path = true ∧ sys.value path = some info ∧
          sys.valueSize path = 52 ∧ info.signature = 4277077181) ∧
          readVersion sys path (some .getFileVersionInfo) (some .verQueryValue) w = .throws .winpty w')) := by
  have s1 := step_call sys w .getFileVersionInfo hf.2.1
  cases hr : sys.infoRead path with
  | false =>
    refine ⟨_, s1, .inr ⟨by simp, ?_⟩⟩
    simp only [readVersion, Run.bind, call, hr, Bool.not_false, if_true, Run.throw]
  | true =>
    have s2 := s1.trans (step_call sys _ .verQueryValue hf.2.2)
    refine ⟨_, s2, ?_⟩
    rcases badValue_cases sys path
      ⟨w.libraries, w.buffers, w.log ++ [.call .getFileVersionInfo] ++ [.call .verQueryValue]⟩ with
      ⟨info, a, b, c, d, e, g⟩ | ⟨a, e⟩
    · refine .inl ⟨info, rfl, a, b, c, d, ?_⟩
      simp only [readVersion, Run.bind, call, hr, Bool.not_true, Bool.false_eq_true, if_false, e, g]
    · refine .inr ⟨fun ⟨i, _, h⟩ => a ⟨i, h⟩, ?_⟩
      simp only [readVersion, Run.bind, call, hr, Bool.not_true, Bool.false_eq_true, if_false, e, if_true, Run.throw]

/-- How the part with the library ends, once it has its functions. -/
theorem withVersionDll_cases (sys : Sys) (path : List Nat) (w : World) :
    ∃ w', Step sys w w' ∧
      ((∃ info, Functions sys ∧ sys.infoSize path ≠ 0 ∧ sys.mem path = true ∧ sys.infoRead path = true ∧
          sys.queried path = true ∧ sys.value path = some info ∧
          sys.valueSize path = 52 ∧ info.signature = 4277077181 ∧ withVersionDll sys path w = .ok info w') ∨
       (Functions sys ∧ sys.infoSize path = 0 ∧ (sys.sizeError path = 2 ∨ sys.sizeError path = 1812) ∧
          withVersionDll sys path w = .throws .moduleNotFound w') ∨
       (Functions sys ∧ sys.infoSize path ≠ 0 ∧ sys.mem path = false ∧
          withVersionDll sys path w = .throws .badAlloc w') ∨
       ((¬ (Functions sys ∧ sys.infoSize path = 0 ∧ (sys.sizeError path = 2 ∨ sys.sizeError path = 1812))) ∧
        (¬ (Functions sys ∧ sys.infoSize path ≠ 0 ∧ sys.mem path = false)) ∧
        (¬ ∃ info, Functions sys ∧ sys.infoSize path ≠ 0 ∧ sys.infoRead path = true ∧
          sys.queried path = true ∧ sys.value path = some info ∧
          sys.valueSize path = 52 ∧ info.signature = 4277077181) ∧
        withVersionDll sys path w = .throws .winpty w')) := by
  rcases api_cases sys .getFileVersionInfoSize w with ⟨p1, r1⟩ | ⟨p1, w', r1, s⟩
  · rcases api_cases sys .getFileVersionInfo w with ⟨p2, r2⟩ | ⟨p2, w', r2, s⟩
    · rcases api_cases sys .verQueryValue w with ⟨p3, r3⟩ | ⟨p3, w', r3, s⟩
      · have hf : Functions sys := ⟨p1, p2, p3⟩
        have s1 := step_call sys w .getFileVersionInfoSize p1
        by_cases hz : sys.infoSize path = 0
        · by_cases he : sys.sizeError path = 2 ∨ sys.sizeError path = 1812
          · refine ⟨_, s1, .inr (.inl ⟨hf, hz, he, ?_⟩)⟩
            simp only [withVersionDll, Run.bind, r1, r2, r3, call, hz, if_true, sizeFailed, if_pos he, Run.throw]
          · refine ⟨_, s1, .inr (.inr (.inr ⟨fun h => he h.2.2, fun h => h.2.1 hz, fun ⟨_, h⟩ => h.2.1 hz, ?_⟩))⟩
            simp only [withVersionDll, Run.bind, r1, r2, r3, call, hz, if_true, sizeFailed, if_neg he, Run.throw]
        · cases hm : sys.mem path with
          | false =>
            refine ⟨_, s1, .inr (.inr (.inl ⟨hf, hz, rfl, ?_⟩))⟩
            simp only [withVersionDll, Run.bind, r1, r2, r3, call, hz, if_false, newBuffer, hm, Bool.false_eq_true]
          | true =>
            obtain ⟨w', s2, hc⟩ := readVersion_cases sys path hf
              ⟨w.libraries, w.buffers + 1, w.log ++ [.call .getFileVersionInfoSize]⟩
            have s3 : Step sys w (deleteBuffer w') := by
              refine s1.trans ⟨s2.1, ?_, s2.2.2⟩
              simp only [deleteBuffer, s2.2.1, Nat.add_sub_cancel]
            refine ⟨_, s3, ?_⟩
            rcases hc with ⟨info, a, b, c, d, e, g⟩ | ⟨a, g⟩
            · refine .inl ⟨info, hf, hz, rfl, a, b, c, d, e, ?_⟩
              simp only [withVersionDll, Run.bind, r1, r2, r3, call, hz, if_false, newBuffer, hm, if_true, Run.scope, g]
            · refine .inr (.inr (.inr ⟨fun h => hz h.2.1, (fun h => by simp at h), fun ⟨i, h⟩ => a ⟨i, h.2.2⟩, ?_⟩))
              simp only [withVersionDll, Run.bind, r1, r2, r3, call, hz, if_false, newBuffer, hm, if_true, Run.scope, g]
      · refine ⟨w', s, .inr (.inr (.inr ⟨?_, ?_, ?_, ?_⟩))⟩
        · rintro ⟨⟨_, _, h⟩, _⟩; rw [p3] at h; cases h
        · rintro ⟨⟨_, _, h⟩, _⟩; rw [p3] at h; cases h
        · rintro ⟨_, ⟨_, _, h⟩, _⟩; rw [p3] at h; cases h
        · simp only [withVersionDll, Run.bind, r1, r2, r3]
    · refine ⟨w', s, .inr (.inr (.inr ⟨?_, ?_, ?_, ?_⟩))⟩
      · rintro ⟨⟨_, h, _⟩, _⟩; rw [p2] at h; cases h
      · rintro ⟨⟨_, h, _⟩, _⟩; rw [p2] at h; cases h
      · rintro ⟨_, ⟨_, h, _⟩, _⟩; rw [p2] at h; cases h
      · simp only [withVersionDll, Run.bind, r1, r2]
  · refine ⟨w', s, .inr (.inr (.inr ⟨?_, ?_, ?_, ?_⟩))⟩
    · rintro ⟨⟨h, _⟩, _⟩; rw [p1] at h; cases h
    · rintro ⟨⟨h, _⟩, _⟩; rw [p1] at h; cases h
    · rintro ⟨_, ⟨h, _⟩, _⟩; rw [p1] at h; cases h
    · simp only [withVersionDll, Run.bind, r1]

/-- How `getFixedFileInfo` ends. -/
theorem fixedFileInfo_cases (sys : Sys) (path : List Nat) (w : World) :
    ∃ w', Step sys w w' ∧
      ((∃ info, HasVersion sys path info ∧ sys.mem path = true ∧ getFixedFileInfo sys path w = .ok info w') ∨
       (NoFile sys path ∧ getFixedFileInfo sys path w = .throws .moduleNotFound w') ∨
       (OutOfMemory sys path ∧ getFixedFileInfo sys path w = .throws .badAlloc w') ∨
       (¬ NoFile sys path ∧ ¬ OutOfMemory sys path ∧ (∀ info, ¬ HasVersion sys path info) ∧
        getFixedFileInfo sys path w = .throws .winpty w')) := by
  by_cases h0 : sys.dirSize = 0
  · refine ⟨w, Step.refl sys w, .inr (.inr (.inr ⟨?_, ?_, ?_, ?_⟩))⟩
    · intro h; have := h.1.1.1; omega
    · intro h; have := h.1.1.1; omega
    · intro _ h; have := h.1.1.1; omega
    · simp only [getFixedFileInfo, Run.bind, getSystemDirectory, if_pos h0, Run.throw]
  by_cases h1 : sys.dirSize ≥ 260
  · refine ⟨w, Step.refl sys w, .inr (.inr (.inr ⟨?_, ?_, ?_, ?_⟩))⟩
    · intro h; have := h.1.1.2; omega
    · intro h; have := h.1.1.2; omega
    · intro _ h; have := h.1.1.2; omega
    · simp only [getFixedFileInfo, Run.bind, getSystemDirectory, if_neg h0, if_pos h1, Run.throw]
  have hd : HasDirectory sys := ⟨by omega, by omega⟩
  cases hl : sys.loads (versionDll sys) with
  | false =>
    refine ⟨w, Step.refl sys w, .inr (.inr (.inr ⟨?_, ?_, ?_, ?_⟩))⟩
    · intro h; have := h.1.2.1; rw [hl] at this; cases this
    · intro h; have := h.1.2.1; rw [hl] at this; cases this
    · intro _ h; have := h.1.2.1; rw [hl] at this; cases this
    · simp only [getFixedFileInfo, Run.bind, getSystemDirectory, if_neg h0, if_neg h1, Run.ret, versionDllName_eq,
        loadOrThrow, hl, Bool.false_eq_true, if_false, Run.throw]
  | true =>
    obtain ⟨w', s, hc⟩ := withVersionDll_cases sys path
      ⟨versionDll sys :: w.libraries, w.buffers, w.log ++ [.load (versionDll sys)]⟩
    refine ⟨_, step_library sys w w' (versionDll sys) (.inl ⟨rfl, hd⟩) s, ?_⟩
    have key : getFixedFileInfo sys path w = (withVersionDll sys path).scope (freeLibrary (versionDll sys))
        ⟨versionDll sys :: w.libraries, w.buffers, w.log ++ [.load (versionDll sys)]⟩ := by
      simp only [getFixedFileInfo, Run.bind, getSystemDirectory, if_neg h0, if_neg h1, Run.ret, versionDllName_eq,
        loadOrThrow, hl, if_true, loaded]
    rcases hc with ⟨info, hf, a⟩ | ⟨hf, a, b, c⟩ | ⟨hf, a, b, c⟩ | ⟨a, b, c, d⟩
    · obtain ⟨a1, a2, a3, a4, a5, a6, a7, a8⟩ := a
      refine .inl ⟨info, ⟨⟨hd, hl, hf⟩, a1, a3, a4, a5, a6, a7⟩, a2, ?_⟩
      rw [key]; simp only [Run.scope, a8]
    · refine .inr (.inl ⟨⟨⟨hd, hl, hf⟩, a, b⟩, ?_⟩)
      rw [key]; simp only [Run.scope, c]
    · refine .inr (.inr (.inl ⟨⟨⟨hd, hl, hf⟩, a, b⟩, ?_⟩))
      rw [key]; simp only [Run.scope, c]
    · refine .inr (.inr (.inr ⟨fun h => a ⟨h.1.2.2, h.2⟩, fun h => b ⟨h.1.2.2, h.2⟩,
        fun info h => c ⟨info, h.1.2.2, h.2⟩, ?_⟩))
      rw [key]; simp only [Run.scope, d]

/-- How `dllVersion` ends. -/
theorem dllVersion_cases (sys : Sys) (hr : InRange sys) (path : List Nat) (w : World) :
    ∃ w', Step sys w w' ∧
      ((OutOfMemory sys path ∧ dllVersion sys path w = .throws .badAlloc w') ∨
       (¬ OutOfMemory sys path ∧ ∃ t, Reported sys path t ∧ dllVersion sys path w = .ok t w')) := by
  obtain ⟨w', s, hc⟩ := fixedFileInfo_cases sys path w
  rcases hc with ⟨info, a, m, b⟩ | ⟨a, b⟩ | ⟨a, b⟩ | ⟨a, b, c, d⟩
  · obtain ⟨k1, k2, k3, k4⟩ := hr.2 path info a.2.2.2.2.1
    refine ⟨w', s, .inr ⟨?_, _, .version info a m, ?_⟩⟩
    · intro h; have := h.2.2; rw [m] at this; cases this
    · simp only [dllVersion, Run.bind, b, infoText_eq path info k1 k2 k3 k4]
  · refine ⟨w', s, .inr ⟨fun h => h.2.1 a.2.1, _, .none a, ?_⟩⟩
    simp only [dllVersion, Run.bind, b, dllFailed, Run.ret]
    rfl
  · refine ⟨w', s, .inl ⟨a, ?_⟩⟩
    simp only [dllVersion, Run.bind, b, dllFailed, Run.throw]
  · refine ⟨_, s.trans (step_trace sys w' (chars "Error getting " ++ path ++ chars " version")),
      .inr ⟨b, _, .error a c b, ?_⟩⟩
    simp only [dllVersion, Run.bind, d, dllFailed, trace, Run.ret]
    rfl

theorem productText_eq (t : Nat) (ht : t < 2 ^ 8) (w : World) : productText t w = .ok (product t) w := by
  by_cases h1 : t = 1
  · subst h1; rfl
  by_cases h2 : t = 2
  · subst h2; rfl
  by_cases h3 : t = 3
  · subst h3; rfl
  simp only [productText, product, if_neg h1, if_neg h2, if_neg h3, Run.bind, Run.ret,
    dec_eq 4 t (by omega) (by omega)]
  rfl

theorem osText_eq (o : OsInfo) (h : o.major < 2 ^ 32 ∧ o.minor < 2 ^ 32 ∧ o.build < 2 ^ 32 ∧ o.spMajor < 2 ^ 16 ∧
    o.spMinor < 2 ^ 16 ∧ o.productType < 2 ^ 8) (w : World) : osText o w = .ok (osPart o) w := by
  obtain ⟨h1, h2, h3, h4, h5, h6⟩ := h
  simp only [osText, Run.bind, Run.ret, dec_eq 4 o.major (by omega) h1, dec_eq 4 o.minor (by omega) h2,
    dec_eq 4 o.build (by omega) h3, dec_eq 2 o.spMajor (by omega) h4, dec_eq 2 o.spMinor (by omega) h5,
    productText_eq _ h6]
  simp only [osPart, show chars "SP" = codes ['S', 'P'] by decide, codes,
    List.append_assoc, List.map_cons, List.map_nil, List.cons_append, List.nil_append]
  rfl

/-- How the last part ends. -/
theorem dllsAndTrace_cases (sys : Sys) (hr : InRange sys) (ia32 : Bool) (b : List Nat) (w : World) :
    ∃ w', Step sys w w' ∧
      ((OutOfMemory sys kernel32 ∨ OutOfMemory sys (conEmu ia32)) ∧ dllsAndTrace sys ia32 b w = .throws .badAlloc w' ∨
       (¬ OutOfMemory sys kernel32 ∧ ¬ OutOfMemory sys (conEmu ia32)) ∧
        ∃ k c w1, Reported sys kernel32 k ∧ Reported sys (conEmu ia32) c ∧ dllsAndTrace sys ia32 b w = .ok () w' ∧
          w'.log = w.log ++ w1 ++ [.trace (codes ['W', 'i', 'n', 'd', 'o', 'w', 's', ' ', 'v', 'e', 'r', 's', 'i', 'o', 'n', ':', ' ']
            ++ (b ++ codes [' '] ++ k ++ codes [' '] ++ c))]) := by
  have e1 : chars "kernel32.dll" = kernel32 := by decide
  have e2 : conEmuName ia32 = conEmu ia32 := by cases ia32 <;> decide
  obtain ⟨w1, s1, hc⟩ := dllVersion_cases sys hr kernel32 w
  rcases hc with ⟨a, b1⟩ | ⟨a, k, hk, b1⟩
  · exact ⟨w1, s1, .inl ⟨.inl a, by simp only [dllsAndTrace, Run.bind, e1, b1]⟩⟩
  · obtain ⟨w2, s2, hc⟩ := dllVersion_cases sys hr (conEmu ia32) w1
    rcases hc with ⟨a2, b2⟩ | ⟨a2, c, hc, b2⟩
    · exact ⟨w2, s1.trans s2, .inl ⟨.inr a2, by simp only [dllsAndTrace, Run.bind, e1, e2, b1, b2]⟩⟩
    · obtain ⟨_, _, n, hn, _, _⟩ := s1.trans s2
      refine ⟨_, (s1.trans s2).trans (step_trace sys w2 _), .inr ⟨⟨a, a2⟩, k, c, n, hk, hc, ?_, by rw [← hn]⟩⟩
      simp only [dllsAndTrace, Run.bind, e1, e2, b1, b2, trace]
      rfl

theorem wow_cases (sys : Sys) (w : World) (b : List Nat) (rest : List Nat → Run Unit) :
    ∃ w', Step sys w w' ∧
      ((proc sys .isWow64Process).bind fun p => (wowText sys p).bind fun t => rest (b ++ chars "IA32" ++ t)) w =
        rest (b ++ archPart sys true) w' := by
  have eA : archPart sys true = chars "IA32" ++ (if sys.present .isWow64Process = false then chars " WOW64:missingapi"
      else if sys.wowCalled = false then chars " WOW64:error" else if sys.wow = true then chars " WOW64" else []) := by
    simp only [archPart]
    cases sys.present .isWow64Process <;> cases sys.wowCalled <;> cases sys.wow <;> rfl
  rw [eA]
  cases hp : sys.present .isWow64Process with
  | false =>
    refine ⟨_, step_trace sys w (chars "GetProcAddress: missing"), ?_⟩
    simp only [Run.bind, proc, hp, Bool.false_eq_true, if_false, trace, Run.ret, wowText, if_true, List.append_assoc]
  | true =>
    refine ⟨_, step_call sys w .isWow64Process hp, ?_⟩
    cases hc : sys.wowCalled <;> cases hw : sys.wow <;>
      simp [Run.bind, proc, hp, Run.ret, wowText, call, hc, hw, List.append_assoc]

end Winpty.VersionReport
