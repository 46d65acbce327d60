import Verif.Model.ConsoleFont
import Verif.Model.StringUtil

/-!
# Model of `src/agent/ConsoleFont.cc`: finding and calling the font functions of Windows

Which of the functions exist depends on the version of Windows; they are looked up by name in
kernel32.dll.  A C++ object with a loaded module and pointers is a structure of flags (is the pointer
not null?); `modules` counts the references to kernel32.dll that are held.  The console is an abstract
machine (`Api`): reading functions do not change it.  The texts of trace messages are simplified.
-/
namespace Winpty.FontApi

open Winpty.ConsoleFont (Font XpFont selectSmallFont readFontTable)

/-- The functions looked up, src/agent/ConsoleFont.cc:259-289. -/
inductive Fn where
  | setConsoleFont
  | getNumberOfConsoleFonts
  | getCurrentConsoleFont
  | getConsoleFontSize
  | getCurrentConsoleFontEx
  | setCurrentConsoleFontEx
deriving DecidableEq, Repr

/-- `AGENT_CONSOLE_FONT_INFOEX`, src/agent/ConsoleFont.cc:250-257; the face name is an array of
`LF_FACESIZE` (32) units. -/
structure FontInfoEx where
  cbSize : Nat
  nFont : Nat
  x : Int
  y : Int
  family : Nat
  weight : Nat
  faceName : List Nat
deriving DecidableEq, Repr

/-- What the functions do; `σ` is the state of the console.  `none` and `false`: the call fails. -/
structure Api (σ : Type) where
  /-- `LoadLibraryW(L"kernel32.dll")` succeeds -/
  kernel32 : Bool
  /-- the function is in the library -/
  present : Fn → Bool
  outputCP : σ → Nat
  setEx : σ → FontInfoEx → Bool × σ
  getEx : σ → Option FontInfoEx
  setXp : σ → Nat → Bool × σ
  /-- the number of the current font -/
  getXp : σ → Option Nat
  size : σ → Nat → Int × Int
  count : σ → Nat

/-- What is recorded. -/
inductive Ev where
  /-- a function of kernel32.dll is called through its pointer -/
  | call (f : Fn)
  /-- a trace message; `what` stands for its text -/
  | note (what : String)
  /-- a line of the font table in the trace: the numbers of the first and of the last font in it, and
  the sizes -/
  | fonts (first last : Nat) (sizes : List (Int × Int))
deriving DecidableEq, Repr

structure World (σ : Type) where
  con : σ
  modules : Nat
  log : List Ev

/-- How a piece of code ends: normally, with a failed `ASSERT`, with a call through a null pointer, or
with undefined behaviour of another kind. -/
inductive Out (σ α : Type) where
  | ok (a : α) (w : World σ)
  | assertFailed
  | nullCall
  | undefined

/-- A piece of code. -/
def Run (σ α : Type) : Type := World σ → Out σ α

/-- One piece after the other. -/
def Run.bind {σ α β : Type} (m : Run σ α) (k : α → Run σ β) : Run σ β := fun w =>
  match m w with
  | .ok a w' => k a w'
  | .assertFailed => .assertFailed
  | .nullCall => .nullCall
  | .undefined => .undefined

def Run.pure {σ α : Type} (a : α) : Run σ α := fun w => .ok a w

def Run.undefined {σ α : Type} : Run σ α := fun _ => .undefined

/-- `trace`, src/shared/DebugClient.cc:156-159: nothing unless tracing is enabled. -/
def trace {σ : Type} (tracing : Bool) (ev : Ev) : Run σ Unit := fun w =>
  if tracing then .ok () { w with log := w.log ++ [ev] } else .ok () w

/-- `OsModule::OsModule` with `LoadErrorBehavior::Abort`, src/shared/OsModule.h:36-48. -/
def loadModule {σ : Type} (api : Api σ) : Run σ Unit := fun w =>
  if api.kernel32 then .ok () { w with modules := w.modules + 1 } else .assertFailed

/-- `OsModule::~OsModule`, src/shared/OsModule.h:49-51. -/
def freeModule {σ : Type} : Run σ Unit := fun w => .ok () { w with modules := w.modules - 1 }

/-- `OsModule::proc`, src/shared/OsModule.h:53-59: is there such a function? -/
def proc {σ : Type} (api : Api σ) (tracing : Bool) (f : Fn) : Run σ Bool :=
  if api.present f then Run.pure true
  else Run.bind (trace tracing (.note "GetProcAddress: missing")) fun _ => Run.pure false

/-- The pointers of `XPFontAPI`, src/agent/ConsoleFont.cc:300-320. -/
structure Xp where
  getCurrentConsoleFont : Bool
  getConsoleFontSize : Bool
deriving DecidableEq, Repr

/-- `XPFontAPI::XPFontAPI`, src/agent/ConsoleFont.cc:302-305. -/
def newXp {σ : Type} (api : Api σ) (tracing : Bool) : Run σ Xp :=
  Run.bind (loadModule api) fun _ =>
  Run.bind (proc api tracing .getCurrentConsoleFont) fun p =>
  Run.bind (proc api tracing .getConsoleFontSize) fun q =>
  Run.pure ⟨p, q⟩

/-- `XPFontAPI::valid`, src/agent/ConsoleFont.cc:307-310. -/
def Xp.valid (a : Xp) : Bool := a.getCurrentConsoleFont && a.getConsoleFontSize

/-- The pointers of `UndocumentedXPFontAPI`, src/agent/ConsoleFont.cc:322-342. -/
structure Undocumented where
  base : Xp
  setConsoleFont : Bool
  getNumberOfConsoleFonts : Bool
deriving DecidableEq, Repr

/-- `UndocumentedXPFontAPI::UndocumentedXPFontAPI`, src/agent/ConsoleFont.cc:324-327. -/
def newUndocumented {σ : Type} (api : Api σ) (tracing : Bool) : Run σ Undocumented :=
  Run.bind (newXp api tracing) fun base =>
  Run.bind (loadModule api) fun _ =>
  Run.bind (proc api tracing .setConsoleFont) fun p =>
  Run.bind (proc api tracing .getNumberOfConsoleFonts) fun q =>
  Run.pure ⟨base, p, q⟩

/-- `UndocumentedXPFontAPI::valid`, src/agent/ConsoleFont.cc:329-333. -/
def Undocumented.valid (a : Undocumented) : Bool :=
  a.base.valid && a.setConsoleFont && a.getNumberOfConsoleFonts

/-- The pointers of `VistaFontAPI`, src/agent/ConsoleFont.cc:344-362. -/
structure Vista where
  base : Xp
  getCurrentConsoleFontEx : Bool
  setCurrentConsoleFontEx : Bool
deriving DecidableEq, Repr

/-- `VistaFontAPI::VistaFontAPI`, src/agent/ConsoleFont.cc:346-349. -/
def newVista {σ : Type} (api : Api σ) (tracing : Bool) : Run σ Vista :=
  Run.bind (newXp api tracing) fun base =>
  Run.bind (loadModule api) fun _ =>
  Run.bind (proc api tracing .getCurrentConsoleFontEx) fun p =>
  Run.bind (proc api tracing .setCurrentConsoleFontEx) fun q =>
  Run.pure ⟨base, p, q⟩

/-- `VistaFontAPI::valid`, src/agent/ConsoleFont.cc:351-355. -/
def Vista.valid (a : Vista) : Bool :=
  a.base.valid && a.getCurrentConsoleFontEx && a.setCurrentConsoleFontEx

/-- The destructor of an object with two modules, its own and its base's. -/
def freeTwo {σ : Type} : Run σ Unit := Run.bind freeModule fun _ => freeModule

/-- An accessor, src/agent/ConsoleFont.cc:294-298 (`DEFINE_ACCESSOR`), and a call of the function it
returns: `valid` is the result of `valid()`, `pointer` tells whether the pointer is not null. -/
def use {σ α : Type} (valid pointer : Bool) (f : Fn) (effect : σ → α × σ) : Run σ α := fun w =>
  if !valid then .assertFailed
  else if !pointer then .nullCall
  else .ok (effect w.con).1 { w with con := (effect w.con).2, log := w.log ++ [.call f] }

/-- The console is only read. -/
def reading {σ α : Type} (f : σ → α) : σ → α × σ := fun s => (f s, s)

/-- `readFontTable`, src/agent/ConsoleFont.cc:364-375; `left` is `maxCount - i`. -/
def readTable {σ : Type} (api : Api σ) (a : Xp) (i : Nat) : Nat → Run σ (List XpFont)
  | 0 => Run.pure []
  | left + 1 =>
    Run.bind (use a.valid a.getConsoleFontSize .getConsoleFontSize (reading fun s => api.size s i))
      fun size =>
    if size.1 = 0 ∧ size.2 = 0 then Run.pure []
    else Run.bind (readTable api a (i + 1) left) fun rest => Run.pure (⟨i, size.1, size.2⟩ :: rest)

/-- `last`, src/agent/ConsoleFont.cc:393. -/
def lastOfLine (count first : Nat) : Nat := min (count - 1) (first + 10 - 1)

/-- The sizes in the line from `first` on, src/agent/ConsoleFont.cc:397-404. -/
def lineSizes (table : List XpFont) (first : Nat) : List (Int × Int) :=
  ((table.drop first).take (lastOfLine table.length first + 1 - first)).map fun f => (f.x, f.y)

/-- The `while` loop of `dumpFontTable`, src/agent/ConsoleFont.cc:391-407; it ends within `fuel` turns
if that is at least the number of fonts left. -/
def dumpLines {σ : Type} (tracing : Bool) (table : List XpFont) (first : Nat) : Nat → Run σ Unit
  | 0 => if first < table.length then Run.undefined else Run.pure ()
  | fuel + 1 =>
    if first < table.length then
      Run.bind (trace tracing
        (.fonts first (lastOfLine table.length first) (lineSizes table first))) fun _ =>
      dumpLines tracing table (lastOfLine table.length first + 1) fuel
    else Run.pure ()

/-- `dumpFontTable`, src/agent/ConsoleFont.cc:377-412. -/
def dumpFontTable {σ : Type} (api : Api σ) (tracing : Bool) : Run σ Unit :=
  if !tracing then Run.pure ()
  else
    Run.bind (newXp api tracing) fun a =>
    if !a.valid then
      Run.bind (trace tracing (.note "dumpFontTable: missing APIs")) fun _ => freeModule
    else
      Run.bind (readTable api a 0 1000) fun table =>
      Run.bind (dumpLines tracing table 0 table.length) fun _ =>
      Run.bind (if table.length = 1000 then trace tracing (.note "fonts: stopped reading")
        else Run.pure ()) fun _ =>
      freeModule

/-- `dumpVistaFont`, src/agent/ConsoleFont.cc:445-456. -/
def dumpVistaFont {σ : Type} (api : Api σ) (tracing : Bool) (a : Vista) : Run σ Unit :=
  if !tracing then Run.pure ()
  else
    Run.bind (use a.valid a.getCurrentConsoleFontEx .getCurrentConsoleFontEx (reading api.getEx))
      fun info =>
    match info with
    | none => trace tracing (.note "GetCurrentConsoleFontEx call failed")
    | some _ => trace tracing (.note "font info")

/-- `dumpXPFont`, src/agent/ConsoleFont.cc:458-471. -/
def dumpXPFont {σ : Type} (api : Api σ) (tracing : Bool) (a : Xp) : Run σ Unit :=
  if !tracing then Run.pure ()
  else
    Run.bind (use a.valid a.getCurrentConsoleFont .getCurrentConsoleFont (reading api.getXp))
      fun info =>
    match info with
    | none => trace tracing (.note "GetCurrentConsoleFont call failed")
    | some _ => trace tracing (.note "font number")

/-- The structure passed to `SetCurrentConsoleFontEx`, src/agent/ConsoleFont.cc:477-482; `none` if the
copy of the face name leaves an array. -/
def infoFor (font : Font) : Option FontInfoEx :=
  match StringUtil.wcsncpyNul (List.replicate 32 0) (font.faceName ++ [0]) with
  | none => none
  | some name => some ⟨84, 0, 0, font.size, font.family, 400, name⟩

/-- `wcsncmp(a, b, n) == 0`, used at src/agent/ConsoleFont.cc:494-495: `none` if it reads past the end
of an array. -/
def wcsncmpEq : List Nat → List Nat → Nat → Option Bool
  | _, _, 0 => some true
  | a :: as, b :: bs, n + 1 =>
    if a ≠ b then some false else if a = 0 then some true else wcsncmpEq as bs n
  | _, _, _ + 1 => none

/-- The test of the face name after the call, src/agent/ConsoleFont.cc:494-499. -/
def checkFace {σ : Type} (tracing : Bool) (info : FontInfoEx) (font : Font) : Run σ Bool :=
  match wcsncmpEq info.faceName (font.faceName ++ [0]) 32 with
  | none => Run.undefined
  | some true => Run.pure true
  | some false =>
    Run.bind (trace tracing (.note "setFontVista: face name was not set")) fun _ =>
    Run.bind (trace tracing (.note "font info")) fun _ => Run.pure false

/-- `setFontVista`, src/agent/ConsoleFont.cc:473-506. -/
def setFontVista {σ : Type} (api : Api σ) (tracing : Bool) (a : Vista) (font : Font) : Run σ Bool :=
  match infoFor font with
  | none => Run.undefined
  | some infoex =>
    Run.bind (trace tracing (.note "setFontVista: setting font")) fun _ =>
    Run.bind (use a.valid a.setCurrentConsoleFontEx .setCurrentConsoleFontEx
      fun s => api.setEx s infoex) fun done =>
    if !done then
      Run.bind (trace tracing (.note "setFontVista: SetCurrentConsoleFontEx call failed")) fun _ =>
      Run.pure false
    else
      Run.bind (use a.valid a.getCurrentConsoleFontEx .getCurrentConsoleFontEx (reading api.getEx))
        fun info =>
      match info with
      | none =>
        Run.bind (trace tracing (.note "setFontVista: GetCurrentConsoleFontEx call failed")) fun _ =>
        Run.pure false
      | some info => checkFace tracing info font

/-- A chosen font, or undefined behaviour or a failed `ASSERT` in `selectSmallFont`
(src/agent/ConsoleFont.cc:508-600). -/
def choose {σ : Type} (codePage columns : Int) (isNewW10 isWin8 : Bool) : Run σ Font :=
  match selectSmallFont codePage columns isNewW10 isWin8 with
  | none => Run.undefined
  | some font => Run.pure font

/-- `GetConsoleOutputCP`, used at src/agent/ConsoleFont.cc:604. -/
def outputCP {σ : Type} (api : Api σ) : Run σ Nat := fun w => .ok (api.outputCP w.con) w

/-- The second attempt of `setSmallFontVista`, src/agent/ConsoleFont.cc:610-619. -/
def fallBack {σ : Type} (api : Api σ) (tracing : Bool) (a : Vista) (codePage : Nat) (columns : Int)
    (isNewW10 isWin8 : Bool) : Run σ Unit :=
  if codePage = 932 ∨ codePage = 936 ∨ codePage = 949 ∨ codePage = 950 then
    Run.bind (trace tracing (.note "setSmallFontVista: falling back")) fun _ =>
    Run.bind (choose 0 columns isNewW10 isWin8) fun fontFB =>
    Run.bind (setFontVista api tracing a fontFB) fun done =>
    if done then trace tracing (.note "setSmallFontVista: fallback was successful")
    else trace tracing (.note "setSmallFontVista: failure")
  else trace tracing (.note "setSmallFontVista: failure")

/-- `setSmallFontVista`, src/agent/ConsoleFont.cc:602-620. -/
def setSmallFontVista {σ : Type} (api : Api σ) (tracing : Bool) (a : Vista) (columns : Int)
    (isNewW10 isWin8 : Bool) : Run σ Unit :=
  Run.bind (outputCP api) fun codePage =>
  Run.bind (choose codePage columns isNewW10 isWin8) fun font =>
  Run.bind (setFontVista api tracing a font) fun done =>
  if done then trace tracing (.note "setSmallFontVista: success")
  else fallBack api tracing a codePage columns isNewW10 isWin8

/-- The loop of `setSmallFontXP`, src/agent/ConsoleFont.cc:639-663, over the sorted table. -/
def tryFonts {σ : Type} (api : Api σ) (tracing : Bool) (a : Undocumented) : List XpFont → Run σ Unit
  | [] => trace tracing (.note "setSmallFontXP: failure")
  | f :: fs =>
    if f.x < 4 then tryFonts api tracing a fs
    else
      Run.bind (trace tracing (.note "setSmallFontXP: setting font")) fun _ =>
      Run.bind (use a.valid a.setConsoleFont .setConsoleFont fun s => api.setXp s f.index) fun done =>
      if !done then
        Run.bind (trace tracing (.note "setSmallFontXP: SetConsoleFont call failed")) fun _ =>
        tryFonts api tracing a fs
      else
        Run.bind (use a.base.valid a.base.getCurrentConsoleFont .getCurrentConsoleFont
          (reading api.getXp)) fun info =>
        match info with
        | none => trace tracing (.note "setSmallFontXP: GetCurrentConsoleFont call failed")
        | some n =>
          if n ≠ f.index then
            Run.bind (trace tracing (.note "setSmallFontXP: font was not set")) fun _ =>
            Run.bind (dumpXPFont api tracing a.base) fun _ =>
            tryFonts api tracing a fs
          else trace tracing (.note "setSmallFontXP: success")

/-- `setSmallFontXP`, src/agent/ConsoleFont.cc:631-664; `sort` is `std::sort` with
`FontSizeComparator` (lines 622-629). -/
def setSmallFontXP {σ : Type} (api : Api σ) (tracing : Bool) (sort : List XpFont → List XpFont)
    (a : Undocumented) : Run σ Unit :=
  Run.bind (use a.valid a.getNumberOfConsoleFonts .getNumberOfConsoleFonts (reading api.count))
    fun fontCount =>
  Run.bind (trace tracing (.note "setSmallFontXP: number of console fonts")) fun _ =>
  Run.bind (readTable api a.base 0 fontCount) fun table =>
  tryFonts api tracing a (sort table)

/-- The part of `setSmallFont` for Windows Vista and later, src/agent/ConsoleFont.cc:680-685. -/
def withVista {σ : Type} (api : Api σ) (tracing : Bool) (a : Vista) (columns : Int)
    (isNewW10 isWin8 : Bool) : Run σ Unit :=
  Run.bind (dumpVistaFont api tracing a) fun _ =>
  Run.bind (dumpFontTable api tracing) fun _ =>
  Run.bind (setSmallFontVista api tracing a columns isNewW10 isWin8) fun _ =>
  Run.bind (dumpVistaFont api tracing a) fun _ =>
  dumpFontTable api tracing

/-- The part of `setSmallFont` for Windows XP, src/agent/ConsoleFont.cc:689-694. -/
def withXp {σ : Type} (api : Api σ) (tracing : Bool) (sort : List XpFont → List XpFont)
    (a : Undocumented) : Run σ Unit :=
  Run.bind (dumpXPFont api tracing a.base) fun _ =>
  Run.bind (dumpFontTable api tracing) fun _ =>
  Run.bind (setSmallFontXP api tracing sort a) fun _ =>
  Run.bind (dumpXPFont api tracing a.base) fun _ =>
  dumpFontTable api tracing

/-- The rest of `setSmallFont` where the functions of Windows Vista are missing,
src/agent/ConsoleFont.cc:687-698. -/
def withoutVista {σ : Type} (api : Api σ) (tracing : Bool) (sort : List XpFont → List XpFont) :
    Run σ Unit :=
  Run.bind (newUndocumented api tracing) fun xp =>
  Run.bind (if xp.valid then withXp api tracing sort xp
    else
      Run.bind (trace tracing (.note "setSmallFont: giving up")) fun _ =>
      dumpFontTable api tracing) fun _ =>
  freeTwo

/-- `setSmallFont`, src/agent/ConsoleFont.cc:672-699. -/
def setSmallFont {σ : Type} (api : Api σ) (tracing : Bool) (sort : List XpFont → List XpFont)
    (columns : Int) (isNewW10 isWin8 : Bool) : Run σ Unit :=
  Run.bind (trace tracing (.note "setSmallFont")) fun _ =>
  Run.bind (newVista api tracing) fun vista =>
  Run.bind (if vista.valid then withVista api tracing vista columns isNewW10 isWin8
    else withoutVista api tracing sort) fun _ =>
  freeTwo

end Winpty.FontApi
