/-!
# Model of `src/agent/ConsoleFont.cc`: choosing a small console font

Tracing is left out, and so is the lookup of the font APIs in kernel32.dll (`XPFontAPI` and its
relatives, lines 293-362, and the choice between them in `setSmallFont`, lines 672-699): they are in
Model/FontApi.
-/
namespace Winpty.ConsoleFont

/-- `FontSize`, src/agent/ConsoleFont.cc:52-55. -/
structure FontSize where
  size : Int
  width : Int
deriving DecidableEq, Repr

/-- `Font`, src/agent/ConsoleFont.cc:57-61; the face name without its terminator. -/
structure Font where
  faceName : List Nat
  family : Nat
  size : Int
deriving DecidableEq, Repr

/-- `kLucidaConsole` ("Lucida Console"), src/agent/ConsoleFont.cc:46. -/
def kLucidaConsole : List Nat :=
  [0x4c, 0x75, 0x63, 0x69, 0x64, 0x61, 0x20, 0x43, 0x6f, 0x6e, 0x73, 0x6f, 0x6c, 0x65]
/-- `kMSGothic`, src/agent/ConsoleFont.cc:47. -/
def kMSGothic : List Nat := [0xff2d, 0xff33, 0x0020, 0x30b4, 0x30b7, 0x30c3, 0x30af]
/-- `kNSimSun`, src/agent/ConsoleFont.cc:48. -/
def kNSimSun : List Nat := [0x65b0, 0x5b8b, 0x4f53]
/-- `kGulimChe`, src/agent/ConsoleFont.cc:49. -/
def kGulimChe : List Nat := [0xad74, 0xb9bc, 0xccb4]
/-- `kMingLight`, src/agent/ConsoleFont.cc:50. -/
def kMingLight : List Nat := [0x7d30, 0x660e, 0x9ad4]

/-- `kLucidaFontSizes`, src/agent/ConsoleFont.cc:115-129. -/
def kLucidaFontSizes : List FontSize :=
  [⟨5, 3⟩, ⟨6, 4⟩, ⟨8, 5⟩, ⟨10, 6⟩, ⟨12, 7⟩, ⟨14, 8⟩, ⟨16, 10⟩, ⟨18, 11⟩, ⟨20, 12⟩, ⟨36, 22⟩,
   ⟨48, 29⟩, ⟨60, 36⟩, ⟨72, 43⟩]
/-- `k932GothicVista`, src/agent/ConsoleFont.cc:132-143. -/
def k932GothicVista : List FontSize :=
  [⟨6, 3⟩, ⟨8, 4⟩, ⟨10, 5⟩, ⟨12, 6⟩, ⟨13, 7⟩, ⟨15, 8⟩, ⟨17, 9⟩, ⟨19, 10⟩, ⟨21, 11⟩]
/-- `k932GothicWin8`, src/agent/ConsoleFont.cc:146-164. -/
def k932GothicWin8 : List FontSize :=
  [⟨5, 3⟩, ⟨7, 4⟩, ⟨9, 5⟩, ⟨11, 6⟩, ⟨13, 7⟩, ⟨15, 8⟩, ⟨17, 9⟩, ⟨20, 10⟩, ⟨22, 11⟩, ⟨24, 12⟩,
   ⟨36, 18⟩, ⟨48, 24⟩, ⟨60, 30⟩, ⟨72, 36⟩]
/-- `k932GothicWin10`, src/agent/ConsoleFont.cc:167-183. -/
def k932GothicWin10 : List FontSize :=
  [⟨6, 3⟩, ⟨8, 4⟩, ⟨10, 5⟩, ⟨12, 6⟩, ⟨14, 7⟩, ⟨16, 8⟩, ⟨18, 9⟩, ⟨20, 10⟩, ⟨22, 11⟩, ⟨24, 12⟩,
   ⟨36, 18⟩, ⟨48, 24⟩, ⟨60, 30⟩, ⟨72, 36⟩]
/-- `k936SimSun`, src/agent/ConsoleFont.cc:186-202. -/
def k936SimSun : List FontSize :=
  [⟨6, 3⟩, ⟨8, 4⟩, ⟨10, 5⟩, ⟨12, 6⟩, ⟨14, 7⟩, ⟨16, 8⟩, ⟨18, 9⟩, ⟨20, 10⟩, ⟨22, 11⟩, ⟨24, 12⟩,
   ⟨36, 18⟩, ⟨48, 24⟩, ⟨60, 30⟩, ⟨72, 36⟩]
/-- `k949GulimChe`, src/agent/ConsoleFont.cc:205-221. -/
def k949GulimChe : List FontSize :=
  [⟨6, 3⟩, ⟨8, 4⟩, ⟨10, 5⟩, ⟨12, 6⟩, ⟨14, 7⟩, ⟨16, 8⟩, ⟨18, 9⟩, ⟨20, 10⟩, ⟨22, 11⟩, ⟨24, 12⟩,
   ⟨36, 18⟩, ⟨48, 24⟩, ⟨60, 30⟩, ⟨72, 36⟩]
/-- `k950MingLight`, src/agent/ConsoleFont.cc:224-240. -/
def k950MingLight : List FontSize :=
  [⟨6, 3⟩, ⟨8, 4⟩, ⟨10, 5⟩, ⟨12, 6⟩, ⟨14, 7⟩, ⟨16, 8⟩, ⟨18, 9⟩, ⟨20, 10⟩, ⟨22, 11⟩, ⟨24, 12⟩,
   ⟨36, 18⟩, ⟨48, 24⟩, ⟨60, 30⟩, ⟨72, 36⟩]

/-- The face name and the table of sizes selected by the `switch` at
src/agent/ConsoleFont.cc:517-556. -/
def tableFor (codePage : Int) (isNewW10 isAtLeastWindows8 : Bool) : List Nat × List FontSize :=
  if codePage = 932 then
    (kMSGothic,
      if isNewW10 then k932GothicWin10
      else if isAtLeastWindows8 then k932GothicWin8
      else k932GothicVista)
  else if codePage = 936 then (kNSimSun, k936SimSun)
  else if codePage = 949 then (kGulimChe, k949GulimChe)
  else if codePage = 950 then (kMingLight, k950MingLight)
  else (kLucidaConsole, kLucidaFontSizes)

/-- A product of `int`s; overflow is undefined behaviour, `none` (src/agent/ConsoleFont.cc:567 and 579). -/
def mulInt (a b : Int) : Option Int :=
  if -2147483648 ≤ a * b ∧ a * b ≤ 2147483647 then some (a * b) else none

/-- `halfColumns`, src/agent/ConsoleFont.cc:578. -/
def halfColumns (columns : Int) : Int := min columns (max 40 (Int.tdiv columns 2))

/-- The score of a table entry, src/agent/ConsoleFont.cc:568-591. -/
def score (columns : Int) (e : FontSize) : Option (Int × Int) :=
  match mulInt e.width columns, mulInt e.width (halfColumns columns) with
  | some width, some halfWidth =>
    if width ≥ 160 ∧ halfWidth ≥ 160 then some (2, -width)
    else if width ≥ 160 then some (1, -width)
    else some (0, width)
  | _, _ => none

/-- `>` of `std::tuple<int, int>`, used at src/agent/ConsoleFont.cc:592. -/
def gt (a b : Int × Int) : Bool := decide (b.1 < a.1 ∨ (b.1 = a.1 ∧ b.2 < a.2))

/-- The loop over the table, src/agent/ConsoleFont.cc:567-596; `best` is the entry at `bestIndex`
(`none` while `bestIndex` is -1).  The outer `none` is undefined behaviour. -/
def selectLoop (columns : Int) :
    List FontSize → Option FontSize → Int × Int → Option (Option FontSize)
  | [], best, _ => some best
  | e :: es, best, bestScore =>
    match score columns e with
    | none => none
    | some sc =>
      if gt sc bestScore then selectLoop columns es (some e) sc
      else selectLoop columns es best bestScore

/-- src/agent/ConsoleFont.cc:558-599 for a given table: `none` for undefined behaviour or a failed `ASSERT`. -/
def selectFrom (columns : Int) (table : List FontSize) : Option FontSize :=
  match selectLoop columns table none (-1, -1) with
  | some (some e) => some e
  | _ => none

/-- `selectSmallFont`, src/agent/ConsoleFont.cc:508-600. -/
def selectSmallFont (codePage columns : Int) (isNewW10 isAtLeastWindows8 : Bool) : Option Font :=
  match selectFrom columns (tableFor codePage isNewW10 isAtLeastWindows8).2 with
  | none => none
  | some e => some ⟨(tableFor codePage isNewW10 isAtLeastWindows8).1, 0x36, e.size⟩

/-- `setSmallFontVista`, src/agent/ConsoleFont.cc:602-620.  `accept` is `setFontVista` (lines
473-506): does Windows take the font and report its face name afterwards?  The result is the list
of the fonts tried and whether one was accepted (it is the last one tried then). -/
def setSmallFontVista (accept : Font → Bool) (codePage columns : Int)
    (isNewW10 isAtLeastWindows8 : Bool) : Option (List Font × Bool) :=
  match selectSmallFont codePage columns isNewW10 isAtLeastWindows8 with
  | none => none
  | some font =>
    if accept font then some ([font], true)
    else if codePage = 932 ∨ codePage = 936 ∨ codePage = 949 ∨ codePage = 950 then
      match selectSmallFont 0 columns isNewW10 isAtLeastWindows8 with
      | none => none
      | some fontFB => some ([font, fontFB], accept fontFB)
    else some ([font], false)

/-- One entry of the XP font table (src/agent/ConsoleFont.cc:364-375): its index and its cell size. -/
structure XpFont where
  index : Nat
  x : Int
  y : Int
deriving DecidableEq, Repr

/-- `readFontTable`, src/agent/ConsoleFont.cc:364-375: `size i` is what `GetConsoleFontSize` returns
for font `i`; `fuel` is `maxCount - i`. -/
def readFontTable (size : Nat → Int × Int) (i : Nat) : Nat → List XpFont
  | 0 => []
  | fuel + 1 =>
    if (size i).1 = 0 ∧ (size i).2 = 0 then []
    else ⟨i, (size i).1, (size i).2⟩ :: readFontTable size (i + 1) fuel

/-- What trying a font can lead to (src/agent/ConsoleFont.cc:646-661). -/
inductive XpTry where
  /-- `SetConsoleFont` failed -/
  | setFailed
  /-- `GetCurrentConsoleFont` failed -/
  | getFailed
  /-- another font is current afterwards -/
  | notSet
  | ok
deriving DecidableEq, Repr

/-- The loop of `setSmallFontXP`, src/agent/ConsoleFont.cc:639-662, over the table sorted by
`FontSizeComparator` (lines 622-629, 638): the font it settles on. -/
def xpLoop (attempt : Nat → XpTry) : List XpFont → Option XpFont
  | [] => none
  | f :: fs =>
    if f.x < 4 then xpLoop attempt fs
    else
      match attempt f.index with
      | .setFailed => xpLoop attempt fs
      | .getFailed => none
      | .notSet => xpLoop attempt fs
      | .ok => some f

/-- The order of `FontSizeComparator`, src/agent/ConsoleFont.cc:622-629. -/
def xpScore (f : XpFont) : Int := f.x + f.y

end Winpty.ConsoleFont
