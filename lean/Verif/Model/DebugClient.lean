/-!
# Model of the debug flags

`getDebugConfig` and `hasDebugFlag` (src/shared/DebugClient.cc).  A C string is the list of its
characters before the terminator.  `hasDebugFlag` aborts the process when the flag contains a comma;
that is the outcome `none`.
-/
namespace Winpty.DebugClient

/-- `','`, the separator of src/shared/DebugClient.cc:140. -/
def comma : Nat := 44

/-- `getDebugConfig`, src/shared/DebugClient.cc:98-119.  `env` is the value of the environment
variable `WINPTY_DEBUG`, `none` if it is not set; `GetEnvironmentVariableA` (line 104-105) returns 0
if it is not set, its length if it fits in the 256-byte buffer with its terminator, and a larger
number otherwise.  The value is cached after the first call (lines 113-117); the environment of the
agent and of the library's process is taken not to change. -/
def getDebugConfig (env : Option (List Nat)) : List Nat :=
  match env with
  | none => []
  | some v => if v.length = 0 ∨ v.length + 1 > 256 then [] else v

/-- `hay.find(needle) != npos` for `std::string`, used at src/shared/DebugClient.cc:153: is there a
position at which `needle` occurs? -/
def contains (hay needle : List Nat) : Bool :=
  match hay with
  | [] => needle.isPrefixOf []
  | c :: cs => if needle.isPrefixOf (c :: cs) then true else contains cs needle

/-- `hasDebugFlag`, src/shared/DebugClient.cc:138-154. -/
def hasDebugFlag (env : Option (List Nat)) (flag : List Nat) : Option Bool :=
  if flag.contains comma then none
  else if (getDebugConfig env).length = 0 then some false
  else some (contains (comma :: (getDebugConfig env ++ [comma])) (comma :: (flag ++ [comma])))

end Winpty.DebugClient
