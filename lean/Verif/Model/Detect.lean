import Verif.Model.Win32Console
import Verif.Model.ConsoleResize

/-!
# Model of what the agent finds out about its system and its console when it starts

`src/shared/WindowsVersion.cc` and `detectNewWindows10Console` of `src/agent/Agent.cc`.
-/
namespace Winpty.Detect

open Winpty.SmallRect (Rect Coord mk4)
open Winpty.Scraper (Con)
open Winpty.ConsoleResize (Api)
open Winpty.Win32Console (Msg setFrozen)

/-- `operator<` of `std::tuple<DWORD, DWORD>` (the type at src/shared/WindowsVersion.cc:39). -/
def tupleLt (a b : Nat × Nat) : Bool := decide (a.1 < b.1) || (!decide (b.1 < a.1) && decide (a.2 < b.2))

/-- `operator>=` of `std::tuple<DWORD, DWORD>` (the type at src/shared/WindowsVersion.cc:39). -/
def tupleGe (a b : Nat × Nat) : Bool := !tupleLt a b

/-- `isAtLeastWindowsVista`, src/shared/WindowsVersion.cc:164-166; `v` is the result of `getWindowsVersion`
(65-68, with `getWindowsVersionInfo`, 44-63, whose call is taken to succeed). -/
def isAtLeastWindowsVista (v : Nat × Nat) : Bool := tupleGe v (6, 0)

/-- `isAtLeastWindows7`, src/shared/WindowsVersion.cc:169-171. -/
def isAtLeastWindows7 (v : Nat × Nat) : Bool := tupleGe v (6, 1)

/-- `isAtLeastWindows8`, src/shared/WindowsVersion.cc:174-176. -/
def isAtLeastWindows8 (v : Nat × Nat) : Bool := tupleGe v (6, 2)

/-- The console, and the object that freezes it with its flag `m_isNewW10`
(src/agent/Win32Console.h:60-63). -/
structure State where
  console : Win32Console.State
  newW10 : Bool
  con : Con

/-- A call of `Win32Console::setFrozen` (src/agent/Win32Console.cc:91-107) and its effect on the console: `on`
is what the console does when a message is sent to its window. -/
def freeze (on : Con → Msg → Con) (s : State) (b : Bool) : State :=
  { s with
    console := setFrozen s.console b
    con := ((setFrozen s.console b).sent.drop s.console.sent.length).foldl on s.con }

/-- The window is made wider than one cell, src/agent/Agent.cc:85-97; `font` is `setSmallFont`. -/
def expand (api : Api) (font : Con → Con) (c : Con) : Con :=
  match api.setWindow (api.setSize (api.setWindow (font c) (mk4 0 0 1 1)) ⟨400, 1⟩).1 (mk4 0 0 2 1) with
  | c1 => api.setWindow c1 (mk4 0 0 (min (api.largest c1).x c1.info.size.x) 1)

/-- The test itself, src/agent/Agent.cc:103-116: `none` if its `ASSERT` fails. -/
def testMark (api : Api) (on : Con → Msg → Con) (s : State) : Option State :=
  if s.console.frozen then none
  else
    match freeze on { s with
        console := { s.console with freezeUsesMark := true }
        con := api.setCursor s.con ⟨s.con.info.window.right, s.con.info.window.bottom⟩ } true with
    | s1 =>
      match freeze on s1 false with
      | s2 =>
        some { s2 with
          con := api.setCursor s2.con ⟨0, 0⟩
          console := { s2.console with freezeUsesMark := false }
          newW10 := decide (s1.con.info.cursor = ⟨s.con.info.window.right, s.con.info.window.bottom⟩) }

/-- `detectNewWindows10Console`, src/agent/Agent.cc:72-117: `none` if an `ASSERT` fails. -/
def detectNewWindows10Console (v : Nat × Nat) (api : Api) (on : Con → Msg → Con) (font : Con → Con) (s : State) :
    Option State :=
  if !isAtLeastWindows8 v then some s
  else if s.con.info.window.left = s.con.info.window.right ∧ s.con.info.window.top = s.con.info.window.bottom then
    if (expand api font s.con).info.window.right > (expand api font s.con).info.window.left then
      testMark api on { s with con := expand api font s.con }
    else none
  else testMark api on s

end Winpty.Detect
