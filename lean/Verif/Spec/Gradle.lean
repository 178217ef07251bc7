import Verif.Model.Gradle
/-!
# What the Android build step is meant to do
-/
namespace Verif.Spec
open Verif Gradle

/-- A library name as meant: a relative path, not empty and not leading up. -/
def Proper (n : String) : Prop := comps n ≠ [] ∧ ".." ∉ comps n

/-- No listed library is inside another. -/
def NoneInside (names : List String) : Prop := ∀ m ∈ names, ∀ n ∈ names, comps m <+: comps n → comps m = comps n

/-- What the plugins lead to is not in the directory `lib` of the Gradle project: however that is changed, it is the same. -/
def Apart (t : Tree) (lib plugins : Path) (names : List String) : Prop :=
  ∀ t' : Tree, (∀ q : Path, ¬ lib <+: q → t' q = t q) →
    ∀ n ∈ names, ∀ r : Path, content t' (plugins ++ comps n ++ r) = content t (plugins ++ comps n ++ r)

/-- The library file is there, and the directory it is to be put in. -/
def Ready (t : Tree) (lib plugins : Path) (n : String) : Prop :=
  (content t (plugins ++ comps n)).isSome = true ∧ t (lib ++ comps n).dropLast = some .dir

/-- The directory for libraries in the Gradle project. -/
def libPath (cwd : Path) (unityProjectPath : String) : Path := absolute cwd (unityProjectPath ++ "/") ++ ["src", "main", "jniLibs"]

/-- The directory of the plugins. -/
def pluginsPath (cwd : Path) (s : Settings) : Path := absolute cwd (s.androidPluginsDir ++ "/")

end Verif.Spec
