import Verif.Model.InputMap
import Verif.Model.StringBuilder
/-!
# Model of the default key table, `src/agent/DefaultInputMap.cc`

`addDefaultEntriesToInputMap` is modelled by the list of its `InputMap::set` calls, in order.  The
`ASSERT`s on the 32-byte scratch buffer hold because every sequence has at most 32 bytes
(`Props/DefaultInputMap.lean`).
-/
namespace Winpty.InputMap
open Winpty.StringBuilder (decText)

/-! Constants of the Windows headers (winuser.h, wincon.h); not part of the repository. -/

/-- winuser.h.  Used at src/agent/DefaultInputMap.cc:238. -/
def VK_BACK : Nat := 0x8
/-- winuser.h.  Used at src/agent/DefaultInputMap.cc:173. -/
def VK_TAB : Nat := 0x9
/-- winuser.h.  Used at src/agent/DefaultInputMap.cc:100. -/
def VK_CLEAR : Nat := 0xc
/-- winuser.h.  Used at src/agent/DefaultInputMap.cc:139. -/
def VK_RETURN : Nat := 0xd
/-- winuser.h.  Used at src/agent/DefaultInputMap.cc:154. -/
def VK_PRIOR : Nat := 0x21
/-- winuser.h.  Used at src/agent/DefaultInputMap.cc:148. -/
def VK_NEXT : Nat := 0x22
/-- winuser.h.  Used at src/agent/DefaultInputMap.cc:108. -/
def VK_END : Nat := 0x23
/-- winuser.h.  Used at src/agent/DefaultInputMap.cc:107. -/
def VK_HOME : Nat := 0x24
/-- winuser.h.  Used at src/agent/DefaultInputMap.cc:72. -/
def VK_LEFT : Nat := 0x25
/-- winuser.h.  Used at src/agent/DefaultInputMap.cc:69. -/
def VK_UP : Nat := 0x26
/-- winuser.h.  Used at src/agent/DefaultInputMap.cc:71. -/
def VK_RIGHT : Nat := 0x27
/-- winuser.h.  Used at src/agent/DefaultInputMap.cc:70. -/
def VK_DOWN : Nat := 0x28
/-- winuser.h.  Used at src/agent/DefaultInputMap.cc:145. -/
def VK_INSERT : Nat := 0x2d
/-- winuser.h.  Used at src/agent/DefaultInputMap.cc:143. -/
def VK_DELETE : Nat := 0x2e
/-- winuser.h.  Used at src/agent/DefaultInputMap.cc:140. -/
def VK_MULTIPLY : Nat := 0x6a
/-- winuser.h.  Used at src/agent/DefaultInputMap.cc:141. -/
def VK_ADD : Nat := 0x6b
/-- winuser.h.  Used at src/agent/DefaultInputMap.cc:142. -/
def VK_SUBTRACT : Nat := 0x6d
/-- winuser.h.  Used at src/agent/DefaultInputMap.cc:144. -/
def VK_DIVIDE : Nat := 0x6f
/-- winuser.h.  Used at src/agent/DefaultInputMap.cc:113. -/
def VK_F1 : Nat := 0x70
/-- winuser.h.  Used at src/agent/DefaultInputMap.cc:114. -/
def VK_F2 : Nat := 0x71
/-- winuser.h.  Used at src/agent/DefaultInputMap.cc:115. -/
def VK_F3 : Nat := 0x72
/-- winuser.h.  Used at src/agent/DefaultInputMap.cc:116. -/
def VK_F4 : Nat := 0x73
/-- winuser.h.  Used at src/agent/DefaultInputMap.cc:189. -/
def VK_F5 : Nat := 0x74
/-- winuser.h.  Used at src/agent/DefaultInputMap.cc:190. -/
def VK_F6 : Nat := 0x75
/-- winuser.h.  Used at src/agent/DefaultInputMap.cc:191. -/
def VK_F7 : Nat := 0x76
/-- winuser.h.  Used at src/agent/DefaultInputMap.cc:192. -/
def VK_F8 : Nat := 0x77
/-- winuser.h.  Used at src/agent/DefaultInputMap.cc:193. -/
def VK_F9 : Nat := 0x78
/-- winuser.h.  Used at src/agent/DefaultInputMap.cc:194. -/
def VK_F10 : Nat := 0x79
/-- winuser.h.  Used at src/agent/DefaultInputMap.cc:195. -/
def VK_F11 : Nat := 0x7a
/-- winuser.h.  Used at src/agent/DefaultInputMap.cc:196. -/
def VK_F12 : Nat := 0x7b
/-- wincon.h.  Used at src/agent/ConsoleInput.cc:637. -/
def RIGHT_ALT_PRESSED : Nat := 0x1
/-- wincon.h.  Used at src/agent/DefaultInputMap.cc:239. -/
def LEFT_ALT_PRESSED : Nat := 0x2
/-- wincon.h.  Used at src/agent/DefaultInputMap.cc:88. -/
def LEFT_CTRL_PRESSED : Nat := 0x8
/-- wincon.h.  Used at src/agent/DefaultInputMap.cc:84. -/
def SHIFT_PRESSED : Nat := 0x10
/-- wincon.h.  Used at src/agent/DefaultInputMap.cc:259. -/
def ENHANCED_KEY : Nat := 0x100

/-- `struct EscapeEncoding`, src/agent/DefaultInputMap.cc:37-43. -/
structure EscapeEncoding where
  altPrefixAllowed : Bool
  pfx : Nat
  id : Nat
  modifiers : Nat
  key : Key
deriving DecidableEq, Repr

/-! `kBare` … `kSuffixBoth`, src/agent/DefaultInputMap.cc:53-64. -/
/-- `kBare`, src/agent/DefaultInputMap.cc:53 -/
def kBare : Nat := 0x01
/-- src/agent/DefaultInputMap.cc:54 -/
def kSemiMod : Nat := 0x02
/-- src/agent/DefaultInputMap.cc:55 -/
def kBareMod : Nat := 0x04
/-- src/agent/DefaultInputMap.cc:62 -/
def kSuffixCtrl : Nat := 0x08
/-- src/agent/DefaultInputMap.cc:63 -/
def kSuffixShift : Nat := 0x10
/-- src/agent/DefaultInputMap.cc:64 -/
def kSuffixBoth : Nat := kSuffixCtrl ||| kSuffixShift

/-- `escapeLetterEncodings`, src/agent/DefaultInputMap.cc:66-174. -/
def escapeLetterEncodings : List EscapeEncoding := [
  ⟨true, 91, 65, kBare ||| kBareMod ||| kSemiMod, ⟨VK_UP, 0, 0⟩⟩,
  ⟨true, 91, 66, kBare ||| kBareMod ||| kSemiMod, ⟨VK_DOWN, 0, 0⟩⟩,
  ⟨true, 91, 67, kBare ||| kBareMod ||| kSemiMod, ⟨VK_RIGHT, 0, 0⟩⟩,
  ⟨true, 91, 68, kBare ||| kBareMod ||| kSemiMod, ⟨VK_LEFT, 0, 0⟩⟩,
  ⟨true, 79, 65, kBare, ⟨VK_UP, 0, 0⟩⟩,
  ⟨true, 79, 66, kBare, ⟨VK_DOWN, 0, 0⟩⟩,
  ⟨true, 79, 67, kBare, ⟨VK_RIGHT, 0, 0⟩⟩,
  ⟨true, 79, 68, kBare, ⟨VK_LEFT, 0, 0⟩⟩,
  ⟨true, 91, 97, kBare, ⟨VK_UP, 0, SHIFT_PRESSED⟩⟩,
  ⟨true, 91, 98, kBare, ⟨VK_DOWN, 0, SHIFT_PRESSED⟩⟩,
  ⟨true, 91, 99, kBare, ⟨VK_RIGHT, 0, SHIFT_PRESSED⟩⟩,
  ⟨true, 91, 100, kBare, ⟨VK_LEFT, 0, SHIFT_PRESSED⟩⟩,
  ⟨true, 79, 97, kBare, ⟨VK_UP, 0, LEFT_CTRL_PRESSED⟩⟩,
  ⟨true, 79, 98, kBare, ⟨VK_DOWN, 0, LEFT_CTRL_PRESSED⟩⟩,
  ⟨true, 79, 99, kBare, ⟨VK_RIGHT, 0, LEFT_CTRL_PRESSED⟩⟩,
  ⟨true, 79, 100, kBare, ⟨VK_LEFT, 0, LEFT_CTRL_PRESSED⟩⟩,
  ⟨true, 91, 69, kBare ||| kSemiMod, ⟨VK_CLEAR, 0, 0⟩⟩,
  ⟨true, 91, 71, kBare ||| kSemiMod, ⟨VK_CLEAR, 0, 0⟩⟩,
  ⟨true, 79, 71, kBare, ⟨VK_CLEAR, 0, 0⟩⟩,
  ⟨true, 91, 72, kBare ||| kBareMod ||| kSemiMod, ⟨VK_HOME, 0, 0⟩⟩,
  ⟨true, 91, 70, kBare ||| kBareMod ||| kSemiMod, ⟨VK_END, 0, 0⟩⟩,
  ⟨true, 79, 72, kBare, ⟨VK_HOME, 0, 0⟩⟩,
  ⟨true, 79, 70, kBare, ⟨VK_END, 0, 0⟩⟩,
  ⟨true, 91, 80, kSemiMod, ⟨VK_F1, 0, 0⟩⟩,
  ⟨true, 91, 81, kSemiMod, ⟨VK_F2, 0, 0⟩⟩,
  ⟨true, 91, 82, kSemiMod, ⟨VK_F3, 0, 0⟩⟩,
  ⟨true, 91, 83, kSemiMod, ⟨VK_F4, 0, 0⟩⟩,
  ⟨false, 79, 80, kBare ||| kBareMod ||| kSemiMod, ⟨VK_F1, 0, 0⟩⟩,
  ⟨false, 79, 81, kBare ||| kBareMod ||| kSemiMod, ⟨VK_F2, 0, 0⟩⟩,
  ⟨false, 79, 82, kBare ||| kBareMod ||| kSemiMod, ⟨VK_F3, 0, 0⟩⟩,
  ⟨false, 79, 83, kBare ||| kBareMod ||| kSemiMod, ⟨VK_F4, 0, 0⟩⟩,
  ⟨true, 79, 77, kBare ||| kBareMod, ⟨VK_RETURN, 13, 0⟩⟩,
  ⟨true, 79, 106, kBare ||| kBareMod, ⟨VK_MULTIPLY, 42, 0⟩⟩,
  ⟨true, 79, 107, kBare ||| kBareMod, ⟨VK_ADD, 43, 0⟩⟩,
  ⟨true, 79, 109, kBare ||| kBareMod, ⟨VK_SUBTRACT, 45, 0⟩⟩,
  ⟨true, 79, 110, kBare ||| kBareMod, ⟨VK_DELETE, 0, 0⟩⟩,
  ⟨true, 79, 111, kBare ||| kBareMod, ⟨VK_DIVIDE, 47, 0⟩⟩,
  ⟨true, 79, 112, kBare ||| kBareMod, ⟨VK_INSERT, 0, 0⟩⟩,
  ⟨true, 79, 113, kBare ||| kBareMod, ⟨VK_END, 0, 0⟩⟩,
  ⟨true, 79, 114, kBare ||| kBareMod, ⟨VK_DOWN, 0, 0⟩⟩,
  ⟨true, 79, 115, kBare ||| kBareMod, ⟨VK_NEXT, 0, 0⟩⟩,
  ⟨true, 79, 116, kBare ||| kBareMod, ⟨VK_LEFT, 0, 0⟩⟩,
  ⟨true, 79, 117, kBare ||| kBareMod, ⟨VK_CLEAR, 0, 0⟩⟩,
  ⟨true, 79, 118, kBare ||| kBareMod, ⟨VK_RIGHT, 0, 0⟩⟩,
  ⟨true, 79, 119, kBare ||| kBareMod, ⟨VK_HOME, 0, 0⟩⟩,
  ⟨true, 79, 120, kBare ||| kBareMod, ⟨VK_UP, 0, 0⟩⟩,
  ⟨true, 79, 121, kBare ||| kBareMod, ⟨VK_PRIOR, 0, 0⟩⟩,
  ⟨true, 91, 77, kBare ||| kSemiMod, ⟨VK_RETURN, 13, 0⟩⟩,
  ⟨true, 91, 106, kBare ||| kSemiMod, ⟨VK_MULTIPLY, 42, 0⟩⟩,
  ⟨true, 91, 107, kBare ||| kSemiMod, ⟨VK_ADD, 43, 0⟩⟩,
  ⟨true, 91, 109, kBare ||| kSemiMod, ⟨VK_SUBTRACT, 45, 0⟩⟩,
  ⟨true, 91, 110, kBare ||| kSemiMod, ⟨VK_DELETE, 0, 0⟩⟩,
  ⟨true, 91, 111, kBare ||| kSemiMod, ⟨VK_DIVIDE, 47, 0⟩⟩,
  ⟨true, 91, 112, kBare ||| kSemiMod, ⟨VK_INSERT, 0, 0⟩⟩,
  ⟨true, 91, 113, kBare ||| kSemiMod, ⟨VK_END, 0, 0⟩⟩,
  ⟨true, 91, 114, kBare ||| kSemiMod, ⟨VK_DOWN, 0, 0⟩⟩,
  ⟨true, 91, 115, kBare ||| kSemiMod, ⟨VK_NEXT, 0, 0⟩⟩,
  ⟨true, 91, 116, kBare ||| kSemiMod, ⟨VK_LEFT, 0, 0⟩⟩,
  ⟨true, 91, 117, kBare ||| kSemiMod, ⟨VK_CLEAR, 0, 0⟩⟩,
  ⟨true, 91, 118, kBare ||| kSemiMod, ⟨VK_RIGHT, 0, 0⟩⟩,
  ⟨true, 91, 119, kBare ||| kSemiMod, ⟨VK_HOME, 0, 0⟩⟩,
  ⟨true, 91, 120, kBare ||| kSemiMod, ⟨VK_UP, 0, 0⟩⟩,
  ⟨true, 91, 121, kBare ||| kSemiMod, ⟨VK_PRIOR, 0, 0⟩⟩,
  ⟨false, 91, 90, kBare, ⟨VK_TAB, 9, SHIFT_PRESSED⟩⟩]

/-- `escapeNumericEncodings`, src/agent/DefaultInputMap.cc:176-205. -/
def escapeNumericEncodings : List EscapeEncoding := [
  ⟨true, 91, 1, kBare ||| kSemiMod ||| kSuffixBoth, ⟨VK_HOME, 0, 0⟩⟩,
  ⟨true, 91, 2, kBare ||| kSemiMod ||| kSuffixBoth, ⟨VK_INSERT, 0, 0⟩⟩,
  ⟨true, 91, 3, kBare ||| kSemiMod ||| kSuffixBoth, ⟨VK_DELETE, 0, 0⟩⟩,
  ⟨true, 91, 4, kBare ||| kSemiMod ||| kSuffixBoth, ⟨VK_END, 0, 0⟩⟩,
  ⟨true, 91, 5, kBare ||| kSemiMod ||| kSuffixBoth, ⟨VK_PRIOR, 0, 0⟩⟩,
  ⟨true, 91, 6, kBare ||| kSemiMod ||| kSuffixBoth, ⟨VK_NEXT, 0, 0⟩⟩,
  ⟨true, 91, 7, kBare ||| kSemiMod ||| kSuffixBoth, ⟨VK_HOME, 0, 0⟩⟩,
  ⟨true, 91, 8, kBare ||| kSemiMod ||| kSuffixBoth, ⟨VK_END, 0, 0⟩⟩,
  ⟨true, 91, 11, kBare ||| kSemiMod ||| kSuffixBoth, ⟨VK_F1, 0, 0⟩⟩,
  ⟨true, 91, 12, kBare ||| kSemiMod ||| kSuffixBoth, ⟨VK_F2, 0, 0⟩⟩,
  ⟨true, 91, 13, kBare ||| kSemiMod ||| kSuffixBoth, ⟨VK_F3, 0, 0⟩⟩,
  ⟨true, 91, 14, kBare ||| kSemiMod ||| kSuffixBoth, ⟨VK_F4, 0, 0⟩⟩,
  ⟨true, 91, 15, kBare ||| kSemiMod ||| kSuffixBoth, ⟨VK_F5, 0, 0⟩⟩,
  ⟨true, 91, 17, kBare ||| kSemiMod ||| kSuffixBoth, ⟨VK_F6, 0, 0⟩⟩,
  ⟨true, 91, 18, kBare ||| kSemiMod ||| kSuffixBoth, ⟨VK_F7, 0, 0⟩⟩,
  ⟨true, 91, 19, kBare ||| kSemiMod ||| kSuffixBoth, ⟨VK_F8, 0, 0⟩⟩,
  ⟨true, 91, 20, kBare ||| kSemiMod ||| kSuffixBoth, ⟨VK_F9, 0, 0⟩⟩,
  ⟨true, 91, 21, kBare ||| kSemiMod ||| kSuffixBoth, ⟨VK_F10, 0, 0⟩⟩,
  ⟨true, 91, 23, kBare ||| kSemiMod ||| kSuffixBoth, ⟨VK_F11, 0, 0⟩⟩,
  ⟨true, 91, 24, kBare ||| kSemiMod ||| kSuffixBoth, ⟨VK_F12, 0, 0⟩⟩,
  ⟨true, 91, 25, kBare ||| kSemiMod ||| kSuffixBoth, ⟨VK_F3, 0, SHIFT_PRESSED⟩⟩,
  ⟨true, 91, 26, kBare ||| kSemiMod ||| kSuffixBoth, ⟨VK_F4, 0, SHIFT_PRESSED⟩⟩,
  ⟨true, 91, 28, kBare ||| kSemiMod ||| kSuffixBoth, ⟨VK_F5, 0, SHIFT_PRESSED⟩⟩,
  ⟨true, 91, 29, kBare ||| kSemiMod ||| kSuffixBoth, ⟨VK_F6, 0, SHIFT_PRESSED⟩⟩,
  ⟨true, 91, 31, kBare ||| kSemiMod ||| kSuffixBoth, ⟨VK_F7, 0, SHIFT_PRESSED⟩⟩,
  ⟨true, 91, 32, kBare ||| kSemiMod ||| kSuffixBoth, ⟨VK_F8, 0, SHIFT_PRESSED⟩⟩,
  ⟨true, 91, 33, kBare ||| kSemiMod ||| kSuffixBoth, ⟨VK_F9, 0, SHIFT_PRESSED⟩⟩,
  ⟨true, 91, 34, kBare ||| kSemiMod ||| kSuffixBoth, ⟨VK_F10, 0, SHIFT_PRESSED⟩⟩]

/-- `useEnhancedForVirtualKey`, src/agent/DefaultInputMap.cc:211-227. -/
def useEnhancedForVirtualKey (vk : Nat) : Bool :=
  [VK_UP, VK_DOWN, VK_LEFT, VK_RIGHT, VK_INSERT, VK_DELETE, VK_HOME, VK_END, VK_PRIOR,
    VK_NEXT].contains vk

/-- Setting `ENHANCED_KEY` where `useEnhancedForVirtualKey` says so, src/agent/DefaultInputMap.cc:258-260
and 291-293. -/
def withEnhanced (k : Key) : Key :=
  if useEnhancedForVirtualKey k.virtualKey then { k with keyState := k.keyState ||| ENHANCED_KEY } else k

/-- `simpleEncodings`, src/agent/DefaultInputMap.cc:235-254. -/
def simpleEncodings : List (List Nat × Key) := [
  ([0x7F], ⟨VK_BACK, 8, 0⟩),
  ([0x1B, 0x7F], ⟨VK_BACK, 8, LEFT_ALT_PRESSED⟩),
  ([3], ⟨67, 3, LEFT_CTRL_PRESSED⟩),
  ([0x1B, 91, 91, 65], ⟨VK_F1, 0, 0⟩),
  ([0x1B, 91, 91, 66], ⟨VK_F2, 0, 0⟩),
  ([0x1B, 91, 91, 67], ⟨VK_F3, 0, 0⟩),
  ([0x1B, 91, 91, 68], ⟨VK_F4, 0, 0⟩),
  ([0x1B, 91, 91, 69], ⟨VK_F5, 0, 0⟩),
  ([0x1B, 0x1B, 91, 91, 65], ⟨VK_F1, 0, LEFT_ALT_PRESSED⟩),
  ([0x1B, 0x1B, 91, 91, 66], ⟨VK_F2, 0, LEFT_ALT_PRESSED⟩),
  ([0x1B, 0x1B, 91, 91, 67], ⟨VK_F3, 0, LEFT_ALT_PRESSED⟩),
  ([0x1B, 0x1B, 91, 91, 68], ⟨VK_F4, 0, LEFT_ALT_PRESSED⟩),
  ([0x1B, 0x1B, 91, 91, 69], ⟨VK_F5, 0, LEFT_ALT_PRESSED⟩)]

/-- `addSimpleEntries`, src/agent/DefaultInputMap.cc:229-265. -/
def simpleRegs : List (List Nat × Key) := simpleEncodings.map fun r => (r.1, withEnhanced r.2)

/-- The character adjustment of `setEncoding`, src/agent/DefaultInputMap.cc:278-290. -/
def ctrlChar (k : Key) : Key :=
  if k.keyState &&& LEFT_CTRL_PRESSED ≠ 0 then
    if k.virtualKey = VK_ADD ∨ k.virtualKey = VK_DIVIDE ∨ k.virtualKey = VK_MULTIPLY ∨
        k.virtualKey = VK_SUBTRACT then { k with unicodeChar := 0 }
    else if k.virtualKey = VK_RETURN then { k with unicodeChar := 10 }
    else k
  else k

/-- The key `setEncoding` registers, src/agent/DefaultInputMap.cc:274-295. -/
def encodedKey (e : EscapeEncoding) (extraKeyState : Nat) : Key :=
  withEnhanced (ctrlChar { e.key with keyState := e.key.keyState ||| extraKeyState })

/-- `keyStateForMod`, src/agent/DefaultInputMap.cc:297-303. -/
def keyStateForMod (mod : Nat) : Nat :=
  (if (mod - 1) &&& 1 ≠ 0 then SHIFT_PRESSED else 0) |||
  (if (mod - 1) &&& 2 ≠ 0 then LEFT_ALT_PRESSED else 0) |||
  (if (mod - 1) &&& 4 ≠ 0 then LEFT_CTRL_PRESSED else 0)

/-- The loop `for (int mod = 2; mod <= 8; ++mod)`, src/agent/DefaultInputMap.cc:356, 365. -/
def mods : List Nat := [2, 3, 4, 5, 6, 7, 8]

/-- `expandNumericEncodingSuffix`, src/agent/DefaultInputMap.cc:305-328; `p` is the text so far. -/
def expandNumericEncodingSuffix (e : EscapeEncoding) (p : List Nat) (extra : Nat) :
    List (List Nat × Key) :=
  [(p ++ [126], encodedKey e extra)] ++
  (if e.modifiers &&& kSuffixShift ≠ 0 then
    [(p ++ [36], encodedKey e (extra ||| SHIFT_PRESSED))] else []) ++
  (if e.modifiers &&& kSuffixCtrl ≠ 0 then
    [(p ++ [94], encodedKey e (extra ||| LEFT_CTRL_PRESSED))] else []) ++
  (if e.modifiers &&& (kSuffixCtrl ||| kSuffixShift) ≠ 0 then
    [(p ++ [64], encodedKey e (extra ||| SHIFT_PRESSED ||| LEFT_CTRL_PRESSED))] else [])

/-- `expandEncodingAfterAltPrefix`, src/agent/DefaultInputMap.cc:330-383; `idText` is `decOfInt(ctx.e.id)`.
The `ASSERT` that `kBareMod` is not used with numeric entries holds of the tables. -/
def expandEncodingAfterAltPrefix (isNumeric : Bool) (e : EscapeEncoding) (idText p : List Nat)
    (extra : Nat) : List (List Nat × Key) :=
  (if e.modifiers &&& kBare ≠ 0 then
    if isNumeric then expandNumericEncodingSuffix e (p ++ [0x1B, e.pfx] ++ idText) extra
    else [(p ++ [0x1B, e.pfx, e.id], encodedKey e extra)]
  else []) ++
  (if e.modifiers &&& kBareMod ≠ 0 then
    mods.map fun m => (p ++ [0x1B, e.pfx, 48 + m, e.id], encodedKey e (extra ||| keyStateForMod m))
  else []) ++
  (if e.modifiers &&& kSemiMod ≠ 0 then
    if isNumeric then
      mods.flatMap fun m => expandNumericEncodingSuffix e (p ++ [0x1B, e.pfx] ++ idText ++ [59, 48 + m])
        (extra ||| keyStateForMod m)
    else
      mods.map fun m => (p ++ [0x1B, e.pfx, 49, 59, 48 + m, e.id],
        encodedKey e (extra ||| keyStateForMod m))
  else [])

/-- `expandEncoding`, src/agent/DefaultInputMap.cc:385-402. -/
def expandEncoding (isNumeric : Bool) (idText : Nat → List Nat) (e : EscapeEncoding) :
    List (List Nat × Key) :=
  (if e.altPrefixAllowed then
    expandEncodingAfterAltPrefix isNumeric e (idText e.id) [0x1B] LEFT_ALT_PRESSED else []) ++
  expandEncodingAfterAltPrefix isNumeric e (idText e.id) [] 0

/-- `addDefaultEntriesToInputMap` with `addEscapes`, src/agent/DefaultInputMap.cc:404-422, for a given
conversion of numbers to text. -/
def defaultRegsWith (idText : Nat → List Nat) : List (List Nat × Key) :=
  escapeLetterEncodings.flatMap (expandEncoding false idText) ++
  escapeNumericEncodings.flatMap (expandEncoding true idText) ++
  simpleRegs

/-- The registrations made by `addDefaultEntriesToInputMap`, src/agent/DefaultInputMap.cc:418-422. -/
def defaultRegs : List (List Nat × Key) := defaultRegsWith fun id => decText 1 id

end Winpty.InputMap
