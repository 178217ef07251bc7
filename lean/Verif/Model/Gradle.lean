import Verif.Model.Fs
import Verif.Model.BuildScript
/-!
# The step that puts the native libraries into the Android project

demos/unity_states/unity/Assets/Plugins/Constellation/Editor: Unity calls it after generating a Gradle project, into which it
has copied the plugin folder with its symbolic links.  The step replaces the links by the files they lead to.

Simplifications.  Paths are case sensitive; a link holds the absolute path it leads to; what is at the destination's
directories is not a link.  `FileUtil` is external: `DeleteFileOrDirectory` deletes a tree without following links and does
nothing if there is none; `CopyFileOrDirectoryFollowSymlinks` throws if the source leads nowhere, the destination exists or the
destination's directory does not; otherwise it copies the tree, every link replaced by what it leads to (a link below the
source that leads nowhere is left out).
-/
namespace Verif.Gradle

/-- What is at a path. (demos/unity_states/unity/Assets/Plugins/Constellation/Editor/ConstellationBuildPreprocessor.cs:8-10) -/
inductive Node where
  | dir
  | file (c : Build.Content)
  | link (target : Path)
deriving DecidableEq, Repr

/-- The disk. (demos/unity_states/unity/Assets/Plugins/Constellation/Editor/ConstellationBuildPreprocessor.cs:22-23) -/
abbrev Tree := Path → Option Node

/-- How far one can walk along a path before meeting a link.
(demos/unity_states/unity/Assets/Plugins/Constellation/Editor/ConstellationBuildPreprocessor.cs:23) -/
inductive Scan where
  | at (p : Path)
  | link (target rest : Path)
  | missing
deriving DecidableEq, Repr

/-- Walk along a path from `done`. (demos/unity_states/unity/Assets/Plugins/Constellation/Editor/ConstellationBuildPreprocessor.cs:23) -/
def scan (t : Tree) (done : Path) : List String → Scan
  | [] => .at done
  | c :: rest => match t (done ++ [c]) with
    | none => .missing
    | some (.link target) => .link target rest
    | some _ => scan t (done ++ [c]) rest

/-- Where a path leads, following at most `n` links.
(demos/unity_states/unity/Assets/Plugins/Constellation/Editor/ConstellationBuildPreprocessor.cs:23) -/
def real (t : Tree) : Nat → Path → Option Path
  | 0, p => match scan t [] p with
    | .at q => some q
    | _ => none
  | n + 1, p => match scan t [] p with
    | .at q => some q
    | .link target rest => real t n (target ++ rest)
    | .missing => none

/-- How many links the operating system follows (`MAXSYMLINKS` of macOS).
(demos/unity_states/unity/Assets/Plugins/Constellation/Editor/ConstellationBuildPreprocessor.cs:23) -/
def maxLinks : Nat := 32

/-- What a path leads to. (demos/unity_states/unity/Assets/Plugins/Constellation/Editor/ConstellationBuildPreprocessor.cs:23) -/
def content (t : Tree) (p : Path) : Option Node := (real t maxLinks p).bind t

/-- Split at the slashes; `cur` is the component begun, backwards.
(paths in demos/unity_states/unity/Assets/Plugins/Constellation/Editor/ConstellationBuildPreprocessor.cs:17, 20-21) -/
def split (cur : List Char) : List Char → List String
  | [] => [String.ofList cur.reverse]
  | c :: rest => if c = '/' then String.ofList cur.reverse :: split [] rest else split (c :: cur) rest

/-- The components of a path; empty ones and dots mean nothing.
(demos/unity_states/unity/Assets/Plugins/Constellation/Editor/ConstellationBuildPreprocessor.cs:17, 20-21) -/
def comps (s : String) : List String := (split [] s.toList).filter fun c => decide (c ≠ "" ∧ c ≠ ".")

/-- One component further, two dots being one up.
(demos/unity_states/unity/Assets/Plugins/Constellation/Editor/ConstellationBuildPreprocessor.cs:20-21) -/
def up (p : Path) (c : String) : Path := if c = ".." then p.dropLast else p ++ [c]

/-- The path a string means, in the directory `cwd`.
(demos/unity_states/unity/Assets/Plugins/Constellation/Editor/ConstellationBuildPreprocessor.cs:17, 20-21) -/
def absolute (cwd : Path) (s : String) : Path := (comps s).foldl up (if s.toList.head? = some '/' then [] else cwd)

/-- `FileUtil.DeleteFileOrDirectory`. (demos/unity_states/unity/Assets/Plugins/Constellation/Editor/ConstellationBuildPreprocessor.cs:22) -/
def delete (t : Tree) (p : Path) : Tree := fun q => if p <+: q then none else t q

/-- `FileUtil.CopyFileOrDirectoryFollowSymlinks`; `none` is an exception.
(demos/unity_states/unity/Assets/Plugins/Constellation/Editor/ConstellationBuildPreprocessor.cs:23) -/
def copy (t : Tree) (src dst : Path) : Option Tree :=
  if (content t src).isSome ∧ t dst = none ∧ t dst.dropLast = some .dir then
    some fun q => if dst <+: q then content t (src ++ q.drop dst.length) else t q
  else none

/-- The settings; `dotnetProjectPath` is not used.
(demos/unity_states/unity/Assets/Plugins/Constellation/Editor/ConstellationBuildSettings.cs:8-10) -/
structure Settings where
  androidPluginsDir : String
  androidLibNames : List String
deriving DecidableEq, Repr

/-- `GetDefaults` on the settings found in the project; `none` is null.
(demos/unity_states/unity/Assets/Plugins/Constellation/Editor/ConstellationBuildSettings.cs:12-30) -/
def getDefaults : List Settings → Option Settings
  | [s] => some s
  | _ => none

/-- `libDir`. (demos/unity_states/unity/Assets/Plugins/Constellation/Editor/ConstellationBuildPreprocessor.cs:17) -/
def libDir (unityProjectPath : String) : String := unityProjectPath ++ "/src/main/jniLibs"

/-- `src`. (demos/unity_states/unity/Assets/Plugins/Constellation/Editor/ConstellationBuildPreprocessor.cs:20) -/
def srcOf (s : Settings) (libName : String) : String := s.androidPluginsDir ++ "/" ++ libName

/-- `dst`. (demos/unity_states/unity/Assets/Plugins/Constellation/Editor/ConstellationBuildPreprocessor.cs:21) -/
def dstOf (unityProjectPath libName : String) : String := libDir unityProjectPath ++ "/" ++ libName

/-- The loop: where the disk may be when it ends, and whether it ended normally.  An exception, a crash or a kill may come
anywhere, also in the middle of deleting or copying a tree, and leaves anything at the destination; a copy that throws is one.
(demos/unity_states/unity/Assets/Plugins/Constellation/Editor/ConstellationBuildPreprocessor.cs:18-24) -/
inductive Loop : Tree → List (Path × Path) → Tree → Bool → Prop
  | done (t : Tree) : Loop t [] t true
  | stopped (t t' : Tree) (src dst : Path) (rest : List (Path × Path)) :
      (∀ q : Path, ¬ dst <+: q → t' q = t q) → Loop t ((src, dst) :: rest) t' false
  | next (t t1 t' : Tree) (src dst : Path) (rest : List (Path × Path)) (b : Bool) :
      copy (delete t dst) src dst = some t1 → Loop t1 rest t' b → Loop t ((src, dst) :: rest) t' b

/-- `OnPostGenerateGradleAndroidProject`, for the settings found; without settings it throws (null).
(demos/unity_states/unity/Assets/Plugins/Constellation/Editor/ConstellationBuildPreprocessor.cs:14-25) -/
inductive Step (cwd : Path) (unityProjectPath : String) (found : List Settings) : Tree → Tree → Bool → Prop
  | none (t : Tree) : getDefaults found = none → Step cwd unityProjectPath found t t false
  | some (s : Settings) (t t' : Tree) (b : Bool) : getDefaults found = some s →
      Loop t (s.androidLibNames.map fun n => (absolute cwd (srcOf s n), absolute cwd (dstOf unityProjectPath n))) t' b →
      Step cwd unityProjectPath found t t' b

end Verif.Gradle
