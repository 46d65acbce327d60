/-!
# Model of the bounded wide-string functions

`winpty_wcsnlen` (src/shared/StringUtil.cc) and `winpty_wcsncpy`, `winpty_wcsncpy_nul`
(src/shared/StringUtil.h).  A pointer to the source is the list of the units that may be read
through it; reading past the end of that list is the outcome `none`.  The destination array is the
list of its `N` units; writing past its end is `none` as well.  A null source pointer (an `ASSERT`
failure) is not represented.
-/
namespace Winpty.StringUtil

/-- The loop of `winpty_wcsnlen`, src/shared/StringUtil.cc:31-36; `i` is the loop variable and
`fuel` is `maxlen - i`. -/
def wcsnlenLoop (s : List Nat) (i : Nat) : Nat → Option Nat
  | 0 => some i
  | fuel + 1 =>
    match s[i]? with
    | none => none
    | some c => if c = 0 then some i else wcsnlenLoop s (i + 1) fuel

/-- `winpty_wcsnlen`, src/shared/StringUtil.cc:29-37. -/
def wcsnlen (s : List Nat) (maxlen : Nat) : Option Nat := wcsnlenLoop s 0 maxlen

/-- A write `d[i] = c` (src/shared/StringUtil.h:63, 66 and 76), `none` outside the array. -/
def store (d : List Nat) (i c : Nat) : Option (List Nat) :=
  if i < d.length then some (d.set i c) else none

/-- The second loop of `winpty_wcsncpy`, src/shared/StringUtil.h:65-67; `fuel` is `N - i`. -/
def padLoop (d : List Nat) (i : Nat) : Nat → Option (List Nat)
  | 0 => some d
  | fuel + 1 =>
    match store d i 0 with
    | none => none
    | some d' => padLoop d' (i + 1) fuel

/-- The first loop of `winpty_wcsncpy`, src/shared/StringUtil.h:59-64, followed by the second one;
`fuel` is `N - i`. -/
def copyLoop (s d : List Nat) (i : Nat) : Nat → Option (List Nat)
  | 0 => some d
  | fuel + 1 =>
    match s[i]? with
    | none => none
    | some c =>
      if c = 0 then padLoop d i (fuel + 1)
      else
        match store d i c with
        | none => none
        | some d' => copyLoop s d' (i + 1) fuel

/-- `winpty_wcsncpy`, src/shared/StringUtil.h:55-69, into the array `d`. -/
def wcsncpy (d s : List Nat) : Option (List Nat) := copyLoop s d 0 d.length

/-- `winpty_wcsncpy_nul`, src/shared/StringUtil.h:72-78. -/
def wcsncpyNul (d s : List Nat) : Option (List Nat) :=
  match wcsncpy d s with
  | none => none
  | some d' => store d' (d.length - 1) 0

end Winpty.StringUtil
