import Verif.Spec.ConsoleApi
import Verif.Model.Win32Console

/-!
# Versions of Windows, and the two kinds of console
-/
namespace Winpty.Spec.Detect

open Winpty.Scraper (Con)
open Winpty.Win32Console (Msg)
open Winpty.Spec.ConsoleApi

/-- The versions of Windows, oldest first. -/
inductive Release where
  | xp
  | xp64
  | vista
  | seven
  | eight
  | eightOne
  | ten
deriving DecidableEq

/-- The order in which they came out. -/
def Release.age : Release → Nat
  | .xp => 0
  | .xp64 => 1
  | .vista => 2
  | .seven => 3
  | .eight => 4
  | .eightOne => 5
  | .ten => 6

/-- What `GetVersionEx` says on a version of Windows: its number, except that versions after Windows 8 claim
to be Windows 8 if the program does not know them. -/
inductive Reports : Release → Nat × Nat → Prop where
  | xp : Reports .xp (5, 1)
  | xp64 : Reports .xp64 (5, 2)
  | vista : Reports .vista (6, 0)
  | seven : Reports .seven (6, 1)
  | eight : Reports .eight (6, 2)
  | eightOne : Reports .eightOne (6, 3)
  | eightOne' : Reports .eightOne (6, 2)
  | ten : Reports .ten (10, 0)
  | ten' : Reports .ten (6, 2)

/-- What both kinds of console do with Escape: a selection ends.  (The cursor may be put back to where it was
when the selection began.) -/
def EndsSelection (on : Con → Msg → Con) : Prop :=
  ∀ c, Fine c.info → Fine (on c .escape).info ∧ (on c .escape).info.size = c.info.size

/-- A console before Windows 10: the command "mark" puts the cursor on the first cell of the window. -/
structure OldConsole (on : Con → Msg → Con) : Prop where
  mark : ∀ c, (on c .mark).info = { c.info with cursor := ⟨c.info.window.left, c.info.window.top⟩ }
  escape : EndsSelection on

/-- The new console of Windows 10: "mark" leaves the cursor where it is. -/
structure NewConsole (on : Con → Msg → Con) : Prop where
  mark : ∀ c, (on c .mark).info = c.info
  escape : EndsSelection on

end Winpty.Spec.Detect
