import Verif.Model.FontApi

/-
Specification for setting the console's font (C84): what is asked of Windows, and when a font counts
as set.  `Api` is the console with the functions kernel32.dll has for it.
-/

namespace Winpty.Spec.FontApi

open Winpty.FontApi (Fn Api FontInfoEx Ev)

/-- Windows Vista and later have these four functions. -/
def HasVista (present : Fn → Bool) : Prop :=
  present .getCurrentConsoleFont = true ∧ present .getConsoleFontSize = true ∧
  present .getCurrentConsoleFontEx = true ∧ present .setCurrentConsoleFontEx = true

/-- Windows XP has these four. -/
def HasXp (present : Fn → Bool) : Prop :=
  present .getCurrentConsoleFont = true ∧ present .getConsoleFontSize = true ∧
  present .setConsoleFont = true ∧ present .getNumberOfConsoleFonts = true

/-- The request for a font: its name, filled up with zeros to 32 units, its height, the family it was
listed with and the normal weight; the width is left to Windows.  The structure has 84 bytes. -/
def request (face : List Nat) (family : Nat) (height : Int) : FontInfoEx where
  cbSize := 84
  nFont := 0
  x := 0
  y := height
  family := family
  weight := 400
  faceName := face ++ List.replicate (32 - face.length) 0

/-- The console after the request. -/
def asked {σ : Type} (api : Api σ) (s : σ) (face : List Nat) (family : Nat) (height : Int) : σ :=
  (api.setEx s (request face family height)).2

/-- The request was granted: the call succeeded, and afterwards the console's font has this name. -/
def Granted {σ : Type} (api : Api σ) (s : σ) (face : List Nat) (family : Nat) (height : Int) : Prop :=
  (api.setEx s (request face family height)).1 = true ∧
  ∃ info, api.getEx (asked api s face family height) = some info ∧ (face ++ [0]) <+: info.faceName

/-- Windows XP: the console after font `i` was asked for. -/
def askedXp {σ : Type} (api : Api σ) (s : σ) (i : Nat) : σ := (api.setXp s i).2

/-- Windows XP: the call succeeded and the current font is the one asked for. -/
def GrantedXp {σ : Type} (api : Api σ) (s : σ) (i : Nat) : Prop :=
  (api.setXp s i).1 = true ∧ api.getXp (askedXp api s i) = some i

/-- Windows XP: the call succeeded, but the current font cannot be read back. -/
def UnreadableXp {σ : Type} (api : Api σ) (s : σ) (i : Nat) : Prop :=
  (api.setXp s i).1 = true ∧ api.getXp (askedXp api s i) = none

/-- Windows XP: `tried` are the fonts asked for, one after the other, out of `candidates`: the first
ones, up to the one that was granted (or could not be read back); all of them if there is none. -/
def TriedUntilGranted {σ : Type} (api : Api σ) (s : σ) (candidates tried : List Nat) : Prop :=
  tried <+: candidates ∧
  (∀ a i b, tried = a ++ i :: b → b ≠ [] →
    ¬ GrantedXp api (a.foldl (askedXp api) s) i ∧ ¬ UnreadableXp api (a.foldl (askedXp api) s) i) ∧
  (tried = candidates ∨ ∃ a i, tried = a ++ [i] ∧
    (GrantedXp api (a.foldl (askedXp api) s) i ∨ UnreadableXp api (a.foldl (askedXp api) s) i))

/-- The calls that change the console's font. -/
def changesFont : Ev → Bool
  | .call .setConsoleFont => true
  | .call .setCurrentConsoleFontEx => true
  | _ => false

end Winpty.Spec.FontApi
