import Verif.Lemmas.VersionReport

/-!
# C86: the report about Windows
-/
namespace Winpty.Props

open Winpty.Spec Winpty.Spec.VersionReport
open Winpty.VersionReport (Sys OsInfo FileInfo Fn Ev World Res Step dumpWindowsVersion versionToString
  dllsAndTrace_cases osText_eq wow_cases step_library versionToString_parts)

/-- The whole report with tracing. -/
private theorem report86 (sys : Sys) (hr : InRange sys) (ia32 : Bool) (w : World) :
    (sys.osInfo = none ∨ (ia32 = true ∧ sys.loads kernel32 = false)) ∧
      dumpWindowsVersion sys true ia32 w = .assertFail ∨
    ∃ o, sys.osInfo = some o ∧ (ia32 = true → sys.loads kernel32 = true) ∧ ∃ w', Step sys w w' ∧
      ((OutOfMemory sys kernel32 ∨ OutOfMemory sys (conEmu ia32)) ∧
        dumpWindowsVersion sys true ia32 w = .throws .badAlloc w' ∨
       (¬ OutOfMemory sys kernel32 ∧ ¬ OutOfMemory sys (conEmu ia32)) ∧
        ∃ k c, Reported sys kernel32 k ∧ Reported sys (conEmu ia32) c ∧
          dumpWindowsVersion sys true ia32 w = .ok () w' ∧
          LastTrace w.log w'.log (message (osPart o) (archPart sys ia32) k c)) := by
  have ek : Winpty.VersionReport.chars "kernel32.dll" = kernel32 := by decide
  cases ho : sys.osInfo with
  | none =>
    refine .inl ⟨.inl rfl, ?_⟩
    simp only [dumpWindowsVersion, Bool.not_true, Bool.false_eq_true, if_false, Winpty.VersionReport.Run.bind,
      Winpty.VersionReport.getWindowsVersionInfo, ho]
  | some o =>
    have h1 := osText_eq o (hr.1 o ho) w
    cases ia32 with
    | false =>
      refine .inr ⟨o, rfl, (fun e => by cases e), ?_⟩
      have key : dumpWindowsVersion sys true false w =
          Winpty.VersionReport.dllsAndTrace sys false (osPart o ++ archPart sys false) w := by
        simp only [dumpWindowsVersion, Bool.not_true, Bool.false_eq_true, if_false, Winpty.VersionReport.Run.bind,
          Winpty.VersionReport.getWindowsVersionInfo, ho, h1]
        rfl
      obtain ⟨w', s, hc⟩ := dllsAndTrace_cases sys hr false (osPart o ++ archPart sys false) w
      refine ⟨w', s, ?_⟩
      rcases hc with ⟨a, b⟩ | ⟨a, k, c, w1, hk, hc, b, hl⟩
      · exact .inl ⟨a, by rw [key, b]⟩
      · refine .inr ⟨a, k, c, hk, hc, by rw [key, b], ?_⟩
        exact ⟨w1, [], by rw [hl]; simp [message], by simp⟩
    | true =>
      cases hl : sys.loads kernel32 with
      | false =>
        refine .inl ⟨.inr ⟨rfl, rfl⟩, ?_⟩
        simp only [dumpWindowsVersion, Bool.not_true, Bool.false_eq_true, if_false, Winpty.VersionReport.Run.bind,
          Winpty.VersionReport.getWindowsVersionInfo, ho, h1, if_true, Winpty.VersionReport.reportIA32,
          Winpty.VersionReport.loadOrAbort, ek, hl]
      | true =>
        refine .inr ⟨o, rfl, (fun _ => rfl), ?_⟩
        obtain ⟨w1, s1, e1⟩ := wow_cases sys ⟨kernel32 :: w.libraries, w.buffers, w.log ++ [.load kernel32]⟩ (osPart o)
          (Winpty.VersionReport.dllsAndTrace sys true)
        obtain ⟨w', s, hc⟩ := dllsAndTrace_cases sys hr true (osPart o ++ archPart sys true) w1
        have key : dumpWindowsVersion sys true true w =
            Winpty.VersionReport.Run.scope (fun _ => Winpty.VersionReport.dllsAndTrace sys true
              (osPart o ++ archPart sys true) w1) (Winpty.VersionReport.freeLibrary kernel32) w := by
          have e2 : dumpWindowsVersion sys true true w =
              Winpty.VersionReport.Run.scope ((Winpty.VersionReport.proc sys .isWow64Process).bind fun p =>
                (Winpty.VersionReport.wowText sys p).bind fun t => Winpty.VersionReport.dllsAndTrace sys true
                  (osPart o ++ Winpty.VersionReport.chars "IA32" ++ t)) (Winpty.VersionReport.freeLibrary kernel32)
                ⟨kernel32 :: w.libraries, w.buffers, w.log ++ [.load kernel32]⟩ := by
            rw [dumpWindowsVersion, if_neg (by decide), Winpty.VersionReport.Run.bind_ok (a := o) (w' := w)
              (by simp only [Winpty.VersionReport.getWindowsVersionInfo, ho]),
              Winpty.VersionReport.Run.bind_ok h1, if_pos rfl, Winpty.VersionReport.reportIA32, ek,
              Winpty.VersionReport.Run.bind_ok (a := ())
              (w' := ⟨kernel32 :: w.libraries, w.buffers, w.log ++ [.load kernel32]⟩)
              (by simp only [Winpty.VersionReport.loadOrAbort, hl, if_true, Winpty.VersionReport.loaded])]
          rw [e2]
          simp only [Winpty.VersionReport.Run.scope]
          rw [e1]
        refine ⟨_, step_library sys w w' kernel32 (.inr rfl) (s1.trans s), ?_⟩
        rcases hc with ⟨a, b⟩ | ⟨a, k, c, w2, hk, hc, b, hl⟩
        · exact .inl ⟨a, by rw [key]; simp only [Winpty.VersionReport.Run.scope, b]⟩
        · refine .inr ⟨a, k, c, hk, hc, by rw [key]; simp only [Winpty.VersionReport.Run.scope, b], ?_⟩
          obtain ⟨_, _, n, hn, _, _⟩ := s1
          refine ⟨.load kernel32 :: (n ++ w2), [.free kernel32], ?_, by simp⟩
          simp [Winpty.VersionReport.freeLibrary, hl, hn, message]

/-- **C86.** Without tracing nothing is done: no library is loaded, no question asked. -/
theorem C86_off (sys : Sys) (ia32 : Bool) (w : World) : dumpWindowsVersion sys false ia32 w = .ok () w := rfl

/-- **C86.** The report never calls a function that does not exist and never reads what Windows has not filled.  It
ends by an assertion only if Windows does not say its version (or, in a 32-bit program, kernel32.dll cannot be
loaded), and with an exception only if there is no memory for the data of a version. -/
theorem C86_safe (sys : Sys) (hr : InRange sys) (tracing ia32 : Bool) (w : World) :
    dumpWindowsVersion sys tracing ia32 w ≠ .nullCall ∧ dumpWindowsVersion sys tracing ia32 w ≠ .wildRead ∧
    (dumpWindowsVersion sys tracing ia32 w = .assertFail →
      sys.osInfo = none ∨ (ia32 = true ∧ sys.loads kernel32 = false)) ∧
    ∀ e w', dumpWindowsVersion sys tracing ia32 w = .throws e w' → e = .badAlloc ∧
      (OutOfMemory sys kernel32 ∨ OutOfMemory sys (conEmu ia32)) := by
  cases tracing with
  | false => rw [C86_off]; simp
  | true =>
    rcases report86 sys hr ia32 w with ⟨a, b⟩ | ⟨o, ho, hk, w', s, ⟨a, b⟩ | ⟨a, k, c, _, _, b, _⟩⟩
    · rw [b]; simp [a]
    · rw [b]; simp [a]
    · rw [b]; simp

/-- **C86.** Every library that was loaded has been released and every buffer deleted, whether the report is made or
not.  Only libraries are loaded that are in every process, or by their full name in the system directory: never
one that happens to lie in the current directory.  Only functions that exist are called. -/
theorem C86_libraries (sys : Sys) (hr : InRange sys) (tracing ia32 : Bool) (w w' : World)
    (h : dumpWindowsVersion sys tracing ia32 w = .ok () w' ∨
      ∃ e, dumpWindowsVersion sys tracing ia32 w = .throws e w') :
    w'.libraries = w.libraries ∧ w'.buffers = w.buffers ∧ Record sys w.log w'.log := by
  have key : ∀ w'', Step sys w w'' →
      w''.libraries = w.libraries ∧ w''.buffers = w.buffers ∧ Record sys w.log w''.log := fun _ s => s
  cases tracing with
  | false =>
    rw [C86_off] at h
    rcases h with h | ⟨e, h⟩
    · cases h; exact Step.refl sys w
    · cases h
  | true =>
    rcases report86 sys hr ia32 w with ⟨a, b⟩ | ⟨o, ho, hk, w2, s, ⟨a, b⟩ | ⟨a, k, c, _, _, b, _⟩⟩ <;>
      rw [b] at h <;> rcases h with h | ⟨e, h⟩ <;> cases h
    · exact key _ s
    · exact key _ s

/-- **C86.** If Windows says its version and there is memory, the report is made: the numbers of Windows, the
architecture, and for kernel32.dll and ConEmu's library the version of the file, or that there is no such file,
or that there was an error. -/
theorem C86_reported (sys : Sys) (hr : InRange sys) (ia32 : Bool) (w : World) (o : OsInfo) (ho : sys.osInfo = some o)
    (hk : ia32 = true → sys.loads kernel32 = true)
    (hm : ¬ OutOfMemory sys kernel32 ∧ ¬ OutOfMemory sys (conEmu ia32)) :
    ∃ w' k c, dumpWindowsVersion sys true ia32 w = .ok () w' ∧ Reported sys kernel32 k ∧
      Reported sys (conEmu ia32) c ∧ LastTrace w.log w'.log (message (osPart o) (archPart sys ia32) k c) := by
  rcases report86 sys hr ia32 w with ⟨a, b⟩ | ⟨o', ho', _, w', s, ⟨a, b⟩ | ⟨a, k, c, hk', hc, b, hl⟩⟩
  · rcases a with a | ⟨a1, a2⟩
    · rw [ho] at a; cases a
    · rw [hk a1] at a2; cases a2
  · rcases a with a | a
    · exact absurd a hm.1
    · exact absurd a hm.2
  · rw [ho] at ho'; cases ho'
    exact ⟨w', k, c, b, hk', hc, hl⟩

private theorem fields_digits86 (ds r : List Nat) (h : ∀ d ∈ ds, 48 ≤ d ∧ d < 58) :
    fields (ds ++ 46 :: r) = ds :: fields r := by
  induction ds with
  | nil => simp [fields]
  | cons d ds ih =>
    have h1 := h d (by simp)
    have h2 := ih fun x hx => h x (by simp [hx])
    have h3 : d ≠ 46 := by omega
    simp [fields, h3, h2]

private theorem fields_last86 (ds : List Nat) (h : ∀ d ∈ ds, 48 ≤ d ∧ d < 58) : fields ds = [ds] := by
  induction ds with
  | nil => rfl
  | cons d ds ih =>
    have h1 := h d (by simp)
    have h2 := ih fun x hx => h x (by simp [hx])
    have h3 : d ≠ 46 := by omega
    simp [fields, h3, h2]

/-- **C86.** The text of a version is its four numbers of sixteen bits, and the version can be read back from it. -/
theorem C86_version_text (v : Nat) (hv : v < 2 ^ 64) (w : World) :
    ∃ t, versionToString v w = .ok t w ∧
      t = dotted (v / 2 ^ 48) (v / 2 ^ 32 % 2 ^ 16) (v / 2 ^ 16 % 2 ^ 16) (v % 2 ^ 16) ∧
      ∃ a b c d, readBack t = some (a, b, c, d) ∧ v = ((a * 2 ^ 16 + b) * 2 ^ 16 + c) * 2 ^ 16 + d := by
  have e1 : (v >>> 48) % 2 ^ 16 = v / 2 ^ 48 := by rw [Nat.shiftRight_eq_div_pow]; omega
  have e2 : (v >>> 32) % 2 ^ 16 = v / 2 ^ 32 % 2 ^ 16 := by rw [Nat.shiftRight_eq_div_pow]
  have e3 : (v >>> 16) % 2 ^ 16 = v / 2 ^ 16 % 2 ^ 16 := by rw [Nat.shiftRight_eq_div_pow]
  have e4 : (v >>> 0) % 2 ^ 16 = v % 2 ^ 16 := by rw [Nat.shiftRight_eq_div_pow]; omega
  refine ⟨_, by rw [versionToString_parts, e1, e2, e3, e4], rfl, v / 2 ^ 48, v / 2 ^ 32 % 2 ^ 16,
    v / 2 ^ 16 % 2 ^ 16, v % 2 ^ 16, ?_, by omega⟩
  have hd : ∀ n : Nat, decimal (n : Int) = codes (Nat.toDigits 10 n) := by
    intro n
    have : ¬ (n : Int) < 0 := by omega
    simp only [decimal, if_neg this, Int.natAbs_natCast]
  have dig := fun n => (Winpty.StringBuilder.toDigits10_codes n).1
  have val := fun n => (Winpty.StringBuilder.toDigits10_codes n).2
  generalize v / 2 ^ 48 = a
  generalize v / 2 ^ 32 % 2 ^ 16 = b
  generalize v / 2 ^ 16 % 2 ^ 16 = c
  generalize v % 2 ^ 16 = d
  have hf : fields (dotted a b c d) = [decimal a, decimal b, decimal c, decimal d] := by
    have e : dotted a b c d = decimal a ++ 46 :: (decimal b ++ 46 :: (decimal c ++ 46 :: decimal d)) := by
      simp [dotted, codes]
    rw [e]
    simp only [hd]
    rw [fields_digits86 _ _ (dig a), fields_digits86 _ _ (dig b), fields_digits86 _ _ (dig c), fields_last86 _ (dig d)]
  simp only [readBack, hf, hd]
  have sd : ∀ n, scanDigits 0 (codes (Nat.toDigits 10 n)) = n := by
    intro n
    have := Winpty.StringBuilder.scanDigits_append 0 _ (dig n) [] (by simp) n (val n)
    simpa using this
  simp only [sd]

/-- A 64-bit Windows 10: it says its version, kernel32.dll has one, ConEmu is not there. -/
private def ten86 : Sys where
  osInfo := some ⟨10, 0, 14393, 0, 0, 1⟩
  dirSize := 19
  dir := codes "C:\\Windows\\System32".toList
  loads := fun _ => true
  present := fun _ => true
  infoSize := fun f => if f = kernel32 then 1024 else 0
  sizeError := fun _ => 2
  mem := fun _ => true
  infoRead := fun _ => true
  queried := fun _ => true
  value := fun _ => some ⟨4277077181, 655360, 943259999, 655360, 943259999⟩
  valueSize := fun _ => 52
  wowCalled := true
  wow := true

/-- The hypotheses hold for it, in a program of either kind. -/
example : InRange ten86 ∧ (∀ f, ¬ OutOfMemory ten86 f) ∧ ten86.loads kernel32 = true := by
  refine ⟨⟨fun o h => ?_, fun f i h => ?_⟩, fun f h => ?_, rfl⟩
  · simp only [ten86, Option.some.injEq] at h
    subst h; simp
  · simp only [ten86, Option.some.injEq] at h
    subst h; simp
  · exact absurd h.2.2 (by simp [ten86])

/-- The report about it. -/
example : dumpWindowsVersion ten86 true false ⟨[], 0, []⟩ = .ok () ⟨[], 0,
    [.load (codes "C:\\Windows\\System32\\version.dll".toList), .call .getFileVersionInfoSize,
     .call .getFileVersionInfo, .call .verQueryValue,
     .free (codes "C:\\Windows\\System32\\version.dll".toList),
     .load (codes "C:\\Windows\\System32\\version.dll".toList), .call .getFileVersionInfoSize,
     .free (codes "C:\\Windows\\System32\\version.dll".toList),
     .trace (codes ("Windows version: 10.0.14393 SP0.0 Client X64 kernel32.dll:F:10.0.14393.351/P:10.0.14393.351 " ++
       "ConEmuHk64.dll:none").toList)]⟩ := by decide +kernel

/-- What is left of a report: did it end well, the record, the libraries held. -/
private def left86 : Res Unit → Option (Bool × List Ev × List (List Nat))
  | .ok _ w => some (true, w.log, w.libraries)
  | .throws _ w => some (false, w.log, w.libraries)
  | _ => none

/-- Without the directory there is still a report. -/
example : left86 (dumpWindowsVersion { ten86 with dirSize := 0 } true true ⟨[], 0, []⟩) = some (true,
    [.load kernel32, .call .isWow64Process, .trace (codes "Error getting kernel32.dll version".toList),
     .trace (codes "Error getting ConEmuHk.dll version".toList),
     .trace (codes ("Windows version: 10.0.14393 SP0.0 Client IA32 WOW64 kernel32.dll:error " ++
      "ConEmuHk.dll:error").toList), .free kernel32], []) := by decide +kernel

/-- All three bad ends of the hypotheses occur: no version of Windows, no kernel32.dll, no memory. -/
example : dumpWindowsVersion { ten86 with osInfo := none } true false ⟨[], 0, []⟩ = .assertFail ∧
    dumpWindowsVersion { ten86 with loads := fun _ => false } true true ⟨[], 0, []⟩ = .assertFail ∧
    left86 (dumpWindowsVersion { ten86 with mem := fun _ => false } true false ⟨[], 0, []⟩) = some (false,
      [.load (versionDll ten86), .call .getFileVersionInfoSize, .free (versionDll ten86)], []) := by decide +kernel

/-- A version and its text. -/
example : readBack (codes "10.0.14393.351".toList) = some (10, 0, 14393, 351) := by decide +kernel

end Winpty.Props
