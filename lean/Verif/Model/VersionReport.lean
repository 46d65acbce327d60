import Verif.Model.StringBuilder

/-!
# Model of the report about Windows, `dumpWindowsVersion` of `src/shared/WindowsVersion.cc`

The agent and the library trace it when they start.  It loads a library to find out the versions of others.
Texts are lists of character codes.  The answers of Windows (`Sys`) are arbitrary; simplification: the same
question has the same answer throughout one report.  A call through a null pointer and reading memory that
Windows has not filled are distinct outcomes.
-/
namespace Winpty.VersionReport

open Winpty.StringBuilder (gdecOfInt)

/-- The characters of a text.  (The literals of src/shared/WindowsVersion.cc:195-251.) -/
def chars (s : String) : List Nat := s.toList.map Char.toNat

/-- The parts that are used of `VS_FIXEDFILEINFO`, src/shared/WindowsVersion.cc:133 and 139-147: each a `DWORD`. -/
structure FileInfo where
  signature : Nat
  fileMS : Nat
  fileLS : Nat
  productMS : Nat
  productLS : Nat
deriving DecidableEq, Repr

/-- `OSVERSIONINFOEX`, src/shared/WindowsVersion.cc:44-63, as used at 193-205: three `DWORD`s, two `WORD`s and a
`BYTE`. -/
structure OsInfo where
  major : Nat
  minor : Nat
  build : Nat
  spMajor : Nat
  spMinor : Nat
  productType : Nat
deriving DecidableEq, Repr

/-- The functions that are looked up, src/shared/WindowsVersion.cc:107-109 and 210-212. -/
inductive Fn where
  | getFileVersionInfoSize
  | getFileVersionInfo
  | verQueryValue
  | isWow64Process
deriving DecidableEq, Repr

/-- The answers of Windows. -/
structure Sys where
  /-- `GetVersionEx` (src/shared/WindowsVersion.cc:57) -/
  osInfo : Option OsInfo
  /-- `GetSystemDirectoryW`: its result, and what is in the buffer up to the NUL (79) -/
  dirSize : Nat
  dir : List Nat
  /-- `LoadLibraryW` succeeds for this name (src/shared/OsModule.h:38) -/
  loads : List Nat → Bool
  /-- the library has the function (src/shared/OsModule.h:54) -/
  present : Fn → Bool
  /-- `GetFileVersionInfoSizeW` of this file: its result and the error code (110-115) -/
  infoSize : List Nat → Nat
  sizeError : List Nat → Nat
  /-- `new char[size]` succeeds (122) -/
  mem : List Nat → Bool
  /-- `GetFileVersionInfoW` succeeds (123) -/
  infoRead : List Nat → Bool
  /-- `VerQueryValueW`: its result, the pointer (what it points to), and the size (128-130) -/
  queried : List Nat → Bool
  value : List Nat → Option FileInfo
  valueSize : List Nat → Nat
  /-- `IsWow64Process`: its result and its answer (215) -/
  wowCalled : Bool
  wow : Bool

/-- What is recorded: libraries loaded and released, calls through pointers, trace messages. -/
inductive Ev where
  | load (name : List Nat)
  | free (name : List Nat)
  | call (f : Fn)
  | trace (text : List Nat)
deriving DecidableEq, Repr

/-- The libraries that are held, the buffers that are allocated, and the record. -/
structure World where
  libraries : List (List Nat)
  buffers : Nat
  log : List Ev
deriving DecidableEq, Repr

/-- The exceptions: `ModuleNotFound` (src/shared/WindowsVersion.cc:70-74), another `WinptyException`, and
`std::bad_alloc`. -/
inductive Exn where
  | moduleNotFound
  | winpty
  | badAlloc
deriving DecidableEq, Repr

/-- How a piece of code ends.  (src/shared/WindowsVersion.cc:76-251.) -/
inductive Res (α : Type) where
  | ok (a : α) (w : World)
  | throws (e : Exn) (w : World)
  | assertFail
  | nullCall
  | wildRead
deriving DecidableEq, Repr

/-- A piece of code.  (src/shared/WindowsVersion.cc:76-251.) -/
abbrev Run (α : Type) := World → Res α

/-- Nothing to do.  (src/shared/WindowsVersion.cc:136.) -/
def Run.ret {α : Type} (a : α) : Run α := fun w => .ok a w

/-- `throw`, src/shared/WindowsVersion.cc:81-84, 94, 116-119, 124 and 134. -/
def Run.throw {α : Type} (e : Exn) : Run α := fun w => .throws e w

/-- One after the other.  (src/shared/WindowsVersion.cc:104-136.) -/
def Run.bind {α β : Type} (m : Run α) (f : α → Run β) : Run β := fun w =>
  match m w with
  | .ok a w' => f a w'
  | .throws e w' => .throws e w'
  | .assertFail => .assertFail
  | .nullCall => .nullCall
  | .wildRead => .wildRead

/-- A destructor at the end of a scope: of `versionDll` and `versionBuffer` at
src/shared/WindowsVersion.cc:104-137, and of `kernel32` at 209-252. -/
def Run.scope {α : Type} (m : Run α) (destructor : World → World) : Run α := fun w =>
  match m w with
  | .ok a w' => .ok a (destructor w')
  | .throws e w' => .throws e (destructor w')
  | .assertFail => .assertFail
  | .nullCall => .nullCall
  | .wildRead => .wildRead

/-- `trace` with tracing enabled, src/shared/DebugClient.cc:156-170. -/
def trace (text : List Nat) : Run Unit := fun w => .ok () { w with log := w.log ++ [.trace text] }

/-- `getSystemDirectory`, src/shared/WindowsVersion.cc:77-87 (`MAX_PATH` is 260). -/
def getSystemDirectory (sys : Sys) : Run (List Nat) :=
  if sys.dirSize = 0 then .throw .winpty
  else if sys.dirSize ≥ 260 then .throw .winpty
  else .ret sys.dir

/-- `LoadLibraryW` has succeeded, src/shared/OsModule.h:38. -/
def loaded (name : List Nat) : Run Unit := fun w =>
  .ok () { w with libraries := name :: w.libraries, log := w.log ++ [.load name] }

/-- The constructor of `OsModule` with `LoadErrorBehavior::Throw`, src/shared/OsModule.h:36-48. -/
def loadOrThrow (sys : Sys) (name : List Nat) : Run Unit :=
  if sys.loads name then loaded name else .throw .winpty

/-- The constructor of `OsModule` with `LoadErrorBehavior::Abort`, src/shared/OsModule.h:36-48. -/
def loadOrAbort (sys : Sys) (name : List Nat) : Run Unit :=
  if sys.loads name then loaded name else fun _ => .assertFail

/-- The destructor of `OsModule`, src/shared/OsModule.h:49-51. -/
def freeLibrary (name : List Nat) (w : World) : World :=
  { w with libraries := w.libraries.erase name, log := w.log ++ [.free name] }

/-- `OsModule::proc`, src/shared/OsModule.h:53-59: the pointer, or null with a message. -/
def proc (sys : Sys) (f : Fn) : Run (Option Fn) :=
  if sys.present f then .ret (some f)
  else (trace (chars "GetProcAddress: missing")).bind fun _ => .ret none

/-- `GET_VERSION_DLL_API`, src/shared/WindowsVersion.cc:89-95. -/
def getVersionDllApi (sys : Sys) (f : Fn) : Run (Option Fn) :=
  (proc sys f).bind fun p => if p = none then .throw .winpty else .ret p

/-- A call through a pointer: src/shared/WindowsVersion.cc:110, 123, 128 and 215. -/
def call (p : Option Fn) : Run Unit := fun w =>
  match p with
  | some f => .ok () { w with log := w.log ++ [.call f] }
  | none => .nullCall

/-- `versionInfo->dwSignature` and `*versionInfo`, src/shared/WindowsVersion.cc:133 and 136: the 52 bytes of a
`VS_FIXEDFILEINFO` are there if Windows said so. -/
def readInfo (sys : Sys) (path : List Nat) : Run FileInfo := fun w =>
  match sys.value path with
  | some info => if sys.queried path ∧ sys.valueSize path = 52 then .ok info w else .wildRead
  | none => .wildRead

/-- The condition at src/shared/WindowsVersion.cc:128-133, evaluated from the left: is there an error? -/
def badValue (sys : Sys) (path : List Nat) : Run Bool :=
  if !sys.queried path then .ret true
  else if (sys.value path).isNone then .ret true
  else if sys.valueSize path ≠ 52 then .ret true
  else (readInfo sys path).bind fun info => .ret (info.signature != 0xFEEF04BD)

/-- With the buffer, src/shared/WindowsVersion.cc:123-136. -/
def readVersion (sys : Sys) (path : List Nat) (pInfo pQuery : Option Fn) : Run FileInfo :=
  (call pInfo).bind fun _ =>
    if !sys.infoRead path then .throw .winpty
    else (call pQuery).bind fun _ => (badValue sys path).bind fun bad =>
      if bad then .throw .winpty else readInfo sys path

/-- `new char[size]`, src/shared/WindowsVersion.cc:122. -/
def newBuffer (sys : Sys) (path : List Nat) : Run Unit := fun w =>
  if sys.mem path then .ok () { w with buffers := w.buffers + 1 } else .throws .badAlloc w

/-- The destructor of `versionBuffer`, src/shared/WindowsVersion.cc:122. -/
def deleteBuffer (w : World) : World := { w with buffers := w.buffers - 1 }

/-- The error of `GetFileVersionInfoSizeW`, src/shared/WindowsVersion.cc:114-120 (`ERROR_FILE_NOT_FOUND` is 2,
`ERROR_RESOURCE_DATA_NOT_FOUND` 1812). -/
def sizeFailed (sys : Sys) (path : List Nat) : Run FileInfo :=
  if sys.sizeError path = 2 ∨ sys.sizeError path = 1812 then .throw .moduleNotFound else .throw .winpty

/-- With the library loaded, src/shared/WindowsVersion.cc:107-136. -/
def withVersionDll (sys : Sys) (path : List Nat) : Run FileInfo :=
  (getVersionDllApi sys .getFileVersionInfoSize).bind fun pSize =>
  (getVersionDllApi sys .getFileVersionInfo).bind fun pInfo =>
  (getVersionDllApi sys .verQueryValue).bind fun pQuery =>
  (call pSize).bind fun _ =>
    if sys.infoSize path = 0 then sizeFailed sys path
    else (newBuffer sys path).bind fun _ => (readVersion sys path pInfo pQuery).scope deleteBuffer

/-- The name of the library, src/shared/WindowsVersion.cc:105. -/
def versionDllName (dir : List Nat) : List Nat := dir ++ chars "\\version.dll"

/-- `getFixedFileInfo`, src/shared/WindowsVersion.cc:98-137. -/
def getFixedFileInfo (sys : Sys) (path : List Nat) : Run FileInfo :=
  (getSystemDirectory sys).bind fun dir => (loadOrThrow sys (versionDllName dir)).bind fun _ =>
    (withVersionDll sys path).scope (freeLibrary (versionDllName dir))

/-- `productVersionFromInfo`, src/shared/WindowsVersion.cc:139-142. -/
def productVersion (info : FileInfo) : Nat := (info.productMS <<< 32) ||| info.productLS

/-- `fileVersionFromInfo`, src/shared/WindowsVersion.cc:144-147. -/
def fileVersion (info : FileInfo) : Nat := (info.fileMS <<< 32) ||| info.fileLS

/-- `operator<<` for an unsigned number of `size` bytes, src/shared/StringBuilder.h:200-207; a text that does not
fit its array is an outcome of its own (C38: it does not happen). -/
def dec (size n : Nat) : Run (List Nat) := fun w =>
  match gdecOfInt size n with
  | some t => .ok t w
  | none => .wildRead

/-- `versionToString`, src/shared/WindowsVersion.cc:149-159; the casts to `uint16_t`. -/
def versionToString (v : Nat) : Run (List Nat) :=
  (dec 2 ((v >>> 48) % 2 ^ 16)).bind fun a => (dec 2 ((v >>> 32) % 2 ^ 16)).bind fun b =>
  (dec 2 ((v >>> 16) % 2 ^ 16)).bind fun c => (dec 2 ((v >>> 0) % 2 ^ 16)).bind fun d =>
  .ret (a ++ [46] ++ b ++ [46] ++ c ++ [46] ++ d)

/-- The text with both versions, src/shared/WindowsVersion.cc:230-234. -/
def infoText (path : List Nat) (info : FileInfo) : Run (List Nat) :=
  (versionToString (fileVersion info)).bind fun f => (versionToString (productVersion info)).bind fun p =>
  .ret (path ++ [58] ++ chars "F:" ++ f ++ [47] ++ chars "P:" ++ p)

/-- The handlers at src/shared/WindowsVersion.cc:235-241; `std::bad_alloc` has none. -/
def dllFailed (path : List Nat) (e : Exn) : Run (List Nat) :=
  match e with
  | .moduleNotFound => .ret (path ++ chars ":none")
  | .winpty => (trace (chars "Error getting " ++ path ++ chars " version")).bind fun _ =>
      .ret (path ++ chars ":error")
  | .badAlloc => .throw .badAlloc

/-- The lambda `dllVersion`, src/shared/WindowsVersion.cc:227-242.  The names are ASCII literals, so
`utf8FromWide` does not change them; the text of the exception in the message is left out. -/
def dllVersion (sys : Sys) (path : List Nat) : Run (List Nat) := fun w =>
  match ((getFixedFileInfo sys path).bind (infoText path)) w with
  | .throws e w' => dllFailed path e w'
  | r => r

/-- `wProductType`, src/shared/WindowsVersion.cc:199-205: `VER_NT_WORKSTATION` is 1,
`VER_NT_DOMAIN_CONTROLLER` 2, `VER_NT_SERVER` 3.  It is a `BYTE`, an `unsigned char`, which is promoted to `int`
and so written as a number (src/shared/StringBuilder.h:202). -/
def productText (t : Nat) : Run (List Nat) :=
  if t = 1 then .ret (chars "Client")
  else if t = 2 then .ret (chars "DomainController")
  else if t = 3 then .ret (chars "Server")
  else (dec 4 t).bind fun n => .ret (chars "product=" ++ n)

/-- The first part of the text, src/shared/WindowsVersion.cc:195-206. -/
def osText (info : OsInfo) : Run (List Nat) :=
  (dec 4 info.major).bind fun a => (dec 4 info.minor).bind fun b => (dec 4 info.build).bind fun c =>
  (dec 2 info.spMajor).bind fun d => (dec 2 info.spMinor).bind fun e =>
  (productText info.productType).bind fun p =>
  .ret (a ++ [46] ++ b ++ [46] ++ c ++ [32] ++ chars "SP" ++ d ++ [46] ++ e ++ [32] ++ p ++ [32])

/-- `IsWow64Process`, src/shared/WindowsVersion.cc:213-223. -/
def wowText (sys : Sys) (p : Option Fn) : Run (List Nat) :=
  if p = none then .ret (chars " WOW64:missingapi")
  else (call p).bind fun _ =>
    if !sys.wowCalled then .ret (chars " WOW64:error")
    else if sys.wow then .ret (chars " WOW64") else .ret []

/-- The file of ConEmu, src/shared/WindowsVersion.cc:246-250. -/
def conEmuName (ia32 : Bool) : List Nat := if ia32 then chars "ConEmuHk.dll" else chars "ConEmuHk64.dll"

/-- The last part, src/shared/WindowsVersion.cc:243-251. -/
def dllsAndTrace (sys : Sys) (ia32 : Bool) (b : List Nat) : Run Unit :=
  (dllVersion sys (chars "kernel32.dll")).bind fun k => (dllVersion sys (conEmuName ia32)).bind fun c =>
  trace (chars "Windows version: " ++ (b ++ [32] ++ k ++ [32] ++ c))

/-- The part for IA32, where `kernel32` lives until the end, src/shared/WindowsVersion.cc:208-252. -/
def reportIA32 (sys : Sys) (b : List Nat) : Run Unit :=
  (loadOrAbort sys (chars "kernel32.dll")).bind fun _ =>
    ((proc sys .isWow64Process).bind fun p => (wowText sys p).bind fun t =>
      dllsAndTrace sys true (b ++ chars "IA32" ++ t)).scope (freeLibrary (chars "kernel32.dll"))

/-- `getWindowsVersionInfo`, src/shared/WindowsVersion.cc:44-63. -/
def getWindowsVersionInfo (sys : Sys) : Run OsInfo := fun w =>
  match sys.osInfo with
  | some info => .ok info w
  | none => .assertFail

/-- `dumpWindowsVersion`, src/shared/WindowsVersion.cc:189-252, for the architectures IA32 and X64. -/
def dumpWindowsVersion (sys : Sys) (tracing ia32 : Bool) : Run Unit :=
  if !tracing then .ret ()
  else (getWindowsVersionInfo sys).bind fun info => (osText info).bind fun b =>
    if ia32 then reportIA32 sys b else dllsAndTrace sys false (b ++ chars "X64")

end Winpty.VersionReport
