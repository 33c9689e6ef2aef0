import Verif.Base64
/-!
# Starting the node editor from a program (tools/NodeEditorIpc/NodeEditorIpc_C.cpp:287-516) and its command line (tools/NodeEditor/NodeEditorApp.cpp:31-53)

Texts are byte lists without the terminating NUL.  The file system and the process calls are parameters (`Sys`).
-/
namespace FastNoise.Launch

/-- `std::string`, `const char*` -/
abbrev Bytes := List UInt8

/-- A string literal. -/
def bytes (s : String) : Bytes := s.toList.map fun c => UInt8.ofNat c.toNat

/-- `"--detached"` -/
def detachedFlag : Bytes := bytes "--detached"
/-- `"--import-ent"` -/
def importFlag : Bytes := bytes "--import-ent"

/-! ## The editor's side -/

/-- `IsDetached`: NodeEditorApp.cpp:31-41; the loop over `argv[1 ..]`. -/
def isDetached (argv : List Bytes) : Bool := argv.tail.any (· == detachedFlag)

/-- The loop of `InitialNodeTree`, NodeEditorApp.cpp:45-51, over `argv[1 ..]`; it stops one before the end. -/
def importLoop : List Bytes → Bytes
  | a :: b :: r => if a = importFlag then b else importLoop (b :: r)
  | _ => []

/-- `InitialNodeTree` and `GetInitialNodeTree`: NodeEditorApp.cpp:43-53, NodeEditorApp.h:44-47; `none` = nullptr. -/
def initialNodeTree (argv : List Bytes) : Option Bytes :=
  let t := importLoop argv.tail
  if t.isEmpty then none else some t

/-! ## The starting side -/

/-- What the calls to the operating system answer. -/
structure Sys where
  /-- directory of the shared library, `dladdr`, `dirname` (POSIX), `GetModuleFileNameA` (Windows); `none`: unknown -/
  libDir : Option Bytes
  /-- `access( p, X_OK ) == 0`, `GetFileAttributesA( p ) != INVALID_FILE_ATTRIBUTES` -/
  access : Bytes → Bool
  /-- `fork` succeeds -/
  fork : Bool
  /-- `execl` of this path succeeds -/
  exec : Bytes → Bool
  /-- `CreateProcessA` with this command line succeeds -/
  create : Bytes → Bool

/-- `fnEditorIpcSetNodeEditorPath`: NodeEditorIpc_C.cpp:290-300, the new value of `g_nodeEditorPath`. -/
def setNodeEditorPath (path : Option Bytes) : Bytes := match path with
  | some p => p
  | none => []

/-- The candidates of `FindNodeEditorBinary`, POSIX: 338-381. -/
def candidatesPosix (s : Sys) : List Bytes :=
  (match s.libDir with
    | some d => [d ++ bytes "/NodeEditor", d ++ bytes "/../bin/NodeEditor"]
    | none => []) ++ [bytes "./NodeEditor", bytes "../bin/NodeEditor", bytes "./bin/NodeEditor"]

/-- The candidates of `FindNodeEditorBinary`, Windows: 311-334. -/
def candidatesWindows (s : Sys) : List Bytes := match s.libDir with
  | some d => [d ++ bytes "\\NodeEditor.exe", d ++ bytes "\\..\\bin\\NodeEditor.exe"]
  | none => []

/-- `FindNodeEditorBinary`: 303-386; `ov` is `g_nodeEditorPath`. -/
def findBinary (s : Sys) (candidates : List Bytes) (ov : Bytes) : Bytes :=
  if !ov.isEmpty then ov else (candidates.find? s.access).getD []

/-- `encodedNodeTree && encodedNodeTree[0] != '\0'` -/
def given (tree : Option Bytes) : Option Bytes := match tree with
  | some t => if t.isEmpty then none else some t
  | none => none

/-- The `argv` arrays of the four `execl` calls: 485-502. -/
def posixArgv (exe : Bytes) (tree : Option Bytes) (detached : Bool) : List Bytes := match given tree, detached with
  | some t, true => [exe, detachedFlag, importFlag, t]
  | none, true => [exe, detachedFlag]
  | some t, false => [exe, importFlag, t]
  | none, false => [exe]

/-- `fnEditorIpcStartNodeEditor`, POSIX branch: 399-403, 471-513: the value returned to the caller, and the arguments of the editor that now runs, if any.  A failing `execl` ends the
child (505). -/
def startPosix (s : Sys) (ov : Bytes) (tree : Option Bytes) (detached : Bool) : Bool × Option (List Bytes) :=
  let exe := findBinary s (candidatesPosix s) ov
  if exe.isEmpty then (false, none)
  else if s.fork then (true, if s.exec exe then some (posixArgv exe tree detached) else none)
  else (false, none)

/-- `cmdLine`: 405-416. -/
def cmdLine (exe : Bytes) (tree : Option Bytes) (detached : Bool) : Bytes :=
  [34] ++ exe ++ [34] ++ (if detached then 32 :: detachedFlag else []) ++ (match given tree with
    | some t => 32 :: importFlag ++ 32 :: t
    | none => [])

/-- How a Windows program's arguments after the first are cut out of the command line (documented behaviour of the C runtime): spaces and tabs separate outside of quotes; quotes group; `n`
backslashes before a quote stand for `n / 2`, the quote being literal if `n` is odd; two quotes inside quotes are a literal quote.  State: inside quotes, just left quotes, backslashes pending,
current word. -/
def cutArgs : Bytes → Bool → Bool → Nat → Option Bytes → List Bytes
  | [], _, _, n, w => if n = 0 then w.toList else [w.getD [] ++ List.replicate n 92]
  | c :: r, q, j, n, w =>
    if c = 92 then cutArgs r q false (n + 1) w
    else if c = 34 then
      if n % 2 = 1 then cutArgs r q false 0 (some (w.getD [] ++ List.replicate (n / 2) 92 ++ [34]))
      else if j && n == 0 then cutArgs r true false 0 (some (w.getD [] ++ [34]))
      else cutArgs r (!q) q 0 (some (w.getD [] ++ List.replicate (n / 2) 92))
    else if (c = 32 ∨ c = 9) ∧ q = false then
      (if n = 0 then w.toList else [w.getD [] ++ List.replicate n 92]) ++ cutArgs r false false 0 none
    else cutArgs r q false 0 (some (w.getD [] ++ List.replicate n 92 ++ [c]))

/-- The arguments of a Windows program: the first is everything up to the closing quote (or up to a space), without backslash rules. -/
def windowsArgv (line : Bytes) : List Bytes := match line with
  | 34 :: r => r.takeWhile (· != 34) :: cutArgs (r.dropWhile (· != 34)).tail false false 0 none
  | _ => line.takeWhile (fun c => c != 32 && c != 9) :: cutArgs (line.dropWhile (fun c => c != 32 && c != 9)) false false 0 none

/-- `fnEditorIpcStartNodeEditor`, Windows branch: 399-468. -/
def startWindows (s : Sys) (ov : Bytes) (tree : Option Bytes) (detached : Bool) : Bool × Option (List Bytes) :=
  let exe := findBinary s (candidatesWindows s) ov
  if exe.isEmpty then (false, none)
  else
    let line := cmdLine exe tree detached
    if s.create line then (true, some (windowsArgv line)) else (false, none)

end FastNoise.Launch
