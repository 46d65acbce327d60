/-!
# Model of `src/agent/Win32Console.{h,cc}`: freezing the console, and reading its title

The console window is driven by messages: a "mark"/"select all" system command puts the console into
selection mode, in which it blocks programs that write to it, and an Escape key message leaves it.
-/
namespace Winpty.Win32Console

/-- A message posted to the console window by `setFrozen`, src/agent/Win32Console.cc:96-106. -/
inductive Msg where
  /-- `WM_SYSCOMMAND`, `SC_CONSOLE_MARK` -/
  | mark
  /-- `WM_SYSCOMMAND`, `SC_CONSOLE_SELECT_ALL` -/
  | selectAll
  /-- `WM_CHAR`, 27 -/
  | escape
deriving DecidableEq, Repr

/-- The fields of `Win32Console` used here (src/agent/Win32Console.h:61-62), the messages sent so
far, and what the operations run so far observed (see `Prog.look`). -/
structure State where
  frozen : Bool
  freezeUsesMark : Bool
  sent : List Msg
  seen : List Bool

/-- `setFrozen`, src/agent/Win32Console.cc:91-107. -/
def setFrozen (s : State) (frozen : Bool) : State :=
  if frozen = s.frozen then s
  else if frozen then
    { s with
      sent := s.sent ++ [if s.freezeUsesMark then Msg.mark else Msg.selectAll]
      frozen := true }
  else { s with sent := s.sent ++ [Msg.escape], frozen := false }

/-- What the agent does around its use of the console, reduced to what matters here.  `guard b p`
is a scope that declares a `FreezeGuard(console, b)` and then runs `p`; `look` is an operation that
depends on whether the console is frozen; `set` is a direct call of `setFrozen` (as in
src/agent/Scraper.cc:239-279); `throw` leaves all enclosing scopes by an exception. -/
inductive Prog where
  | look
  | set (frozen : Bool)
  | setUsesMark (b : Bool)
  | throw
  | seq (p q : Prog)
  | guard (frozen : Bool) (body : Prog)

/-- Running such a program; the second component tells whether an exception left it.  The
constructor of `FreezeGuard` (src/agent/Win32Console.h:34-37) remembers the state and sets the new
one, its destructor (lines 38-40) restores it, on normal and on exceptional exit alike (C++ stack
unwinding). -/
def run : Prog → State → State × Bool
  | .look, s => ({ s with seen := s.seen ++ [s.frozen] }, false)
  | .set b, s => (setFrozen s b, false)
  | .setUsesMark b, s => ({ s with freezeUsesMark := b }, false)
  | .throw, s => (s, true)
  | .seq p q, s =>
    match run p s with
    | (s', true) => (s', true)
    | (s', false) => run q s'
  | .guard b p, s =>
    match run p (setFrozen s b) with
    | (s', t) => (setFrozen s' s.frozen, t)

/-- `GetConsoleTitleW(buffer, size)` with a buffer of that size: the new contents of the buffer and
the return value, or `none` if it would write outside the buffer (the call at
src/agent/Win32Console.cc:72-73). -/
abbrev GetTitle := List Nat → Nat → Option (List Nat × Nat)

/-- `std::vector::resize` to a larger size, which appends zeros
(src/agent/Win32Console.cc:76). -/
def growTo (buf : List Nat) (n : Nat) : List Nat := buf ++ List.replicate (n - buf.length) 0

/-- The characters before the first NUL, as in the conversion of a `wchar_t *` to `std::wstring` at
src/agent/Win32Console.cc:80; `none` if there is no NUL. -/
def cString : List Nat → Option (List Nat)
  | [] => none
  | c :: cs =>
    if c = 0 then some []
    else
      match cString cs with
      | none => none
      | some r => some (c :: r)

/-- The outcomes of reading the title, src/agent/Win32Console.cc:72-81. -/
inductive TitleResult where
  /-- the title and the work buffer afterwards -/
  | ok (title : List Nat) (buf : List Nat)
  /-- a read or write outside the buffer -/
  | bad
  /-- the loop is still running after the given number of iterations -/
  | running
deriving DecidableEq, Repr

/-- `Win32Console::title`, src/agent/Win32Console.cc:42-82, at most `fuel` iterations of its loop.
`buf` is `m_titleWorkBuf` and `get k` is the `k`-th call of `GetConsoleTitleW` (the title may change
between two calls); `sizeof(wchar_t)` is 2 on Windows. -/
def title (get : Nat → GetTitle) (k : Nat) (buf : List Nat) : Nat → TitleResult
  | 0 => .running
  | fuel + 1 =>
    match get k buf buf.length with
    | none => .bad
    | some (buf', count) =>
      if buf'.length < (count + 1) * 2 then
        title get (k + 1) (growTo buf' ((count + 1) * 2)) fuel
      else
        match cString (buf'.set count 0) with
        | none => .bad
        | some t => .ok t (buf'.set count 0)

end Winpty.Win32Console
