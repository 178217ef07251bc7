import Verif.Model.Fs
/-!
# The two generators of C# code

crates/rsharp/codegen (the `RBox_T` classes) and client/codegen_wrapped (states, keyframes, state ids and state handles).

Simplifications.  What a template renders to is an arbitrary function: the text, and whether rendering went through.  The
text is written in one piece.
-/
namespace Verif.Codegen

/-- What the templates give for a class: the text written, and whether rendering succeeded.  The arguments are the contents
of the template files and the class. (`render_to_write`, client/codegen_wrapped/src/lib.rs:107-110) -/
abbrev Render := List String → String → String × Bool

/-- Whether the contents of a template file parse. (`register_template_file`, `register_partial`,
client/codegen_wrapped/src/lib.rs:86-93) -/
abbrev Parses := String → Bool

/-- Reading and parsing the template files, in order. (client/codegen_wrapped/src/lib.rs:86-93; crates/rsharp/codegen/src/codegen.rs:42-44) -/
def readAll (o : Oracle) (ps : Parses) (d : Disk) : List Path → Disk × Outcome (List String)
  | [] => (d, .ok [])
  | p :: rest => match d.readFile o p with
    | (d1, .ok c) =>
      if ps c then match readAll o ps d1 rest with
        | (d2, .ok cs) => (d2, .ok (c :: cs))
        | (d2, .err m) => (d2, .err m)
        | (d2, .panic m) => (d2, .panic m)
      else (d1, .err "template")
    | (d1, .err m) => (d1, .err m)
    | (d1, .panic m) => (d1, .panic m)

/-- The check of `Codegen::new`: the output directory exists and is not empty (or `read_dir` fails because it is a file).
(client/codegen_wrapped/src/lib.rs:64-71; crates/rsharp/codegen/src/codegen.rs:26-30) -/
def blocked (fs : Fs) (out : Path) : Bool :=
  match fs.get out with
  | some (.file _) => true
  | some .dir => fs.hasChild out
  | none => false

/-- `Codegen::new`. (client/codegen_wrapped/src/lib.rs:56-96; crates/rsharp/codegen/src/codegen.rs:18-47) -/
def new (o : Oracle) (ps : Parses) (out : Path) (tpls : List Path) (overwrite : Bool) (d : Disk) : Disk × Outcome (List String) :=
  if !overwrite && blocked d.fs out then (d, .err "`output_dir` is not empty!")
  else match d.createDirAll o out with
    | (d1, .ok ()) => readAll o ps d1 tpls
    | (d1, .err m) => (d1, .err m)
    | (d1, .panic m) => (d1, .panic m)

/-- `Codegen::render_to_file`. (client/codegen_wrapped/src/lib.rs:98-111; crates/rsharp/codegen/src/codegen.rs:49-59) -/
def renderToFile (o : Oracle) (r : Render) (out : Path) (tpl : List String) (d : Disk) (ident : String) : Disk × Outcome Unit :=
  match d.createFile o (out ++ [ident ++ ".cs"]) with
  | (d1, .ok ()) => match d1.writeFile o (out ++ [ident ++ ".cs"]) (r tpl ident).1 with
    | (d2, .ok ()) => (d2, if (r tpl ident).2 then .ok () else .err "render")
    | (d2, .err m) => (d2, .err m)
    | (d2, .panic m) => (d2, .panic m)
  | (d1, .err m) => (d1, .err m)
  | (d1, .panic m) => (d1, .panic m)

/-- `iter().map(render_to_file).collect::<Result<()>>()`: stops at the first error. (client/codegen_wrapped/src/main.rs:24-47) -/
def renderList (o : Oracle) (r : Render) (out : Path) (tpl : List String) (d : Disk) : List String → Disk × Outcome Unit
  | [] => (d, .ok ())
  | i :: rest => match renderToFile o r out tpl d i with
    | (d1, .ok ()) => renderList o r out tpl d1 rest
    | (d1, .err m) => (d1, .err m)
    | (d1, .panic m) => (d1, .panic m)

/-- The types for which classes are generated. (client/codegen_wrapped/src/type_info.rs:58-80, 130-168) -/
def mangledNames : List String :=
  ["U8", "U16", "U32", "U64", "I8", "I16", "I32", "I64", "Bool", "F32", "F64", "String", "ObjectHandle", "ContractDataHandle"]

/-- A template file and the classes made with it. (client/codegen_wrapped/src/main.rs:15-47) -/
structure Group where
  tpl : String
  classes : List String
deriving DecidableEq, Repr

/-- The four templates and the prefixes of their classes. (client/codegen_wrapped/src/main.rs:15-47; client/codegen_wrapped/src/template_keyframe.rs:24,
client/codegen_wrapped/src/template_state.rs:26, client/codegen_wrapped/src/template_state_id.rs:18, client/codegen_wrapped/src/template_state_handle.rs:15) -/
def wrappedGroups : List Group :=
  [⟨"keyframe.cs.tpl", mangledNames.map ("Keyframe_" ++ ·)⟩, ⟨"state.cs.tpl", mangledNames.map ("State_" ++ ·)⟩,
   ⟨"state_id.cs.tpl", mangledNames.map ("StateId_" ++ ·)⟩, ⟨"state_handle.cs.tpl", mangledNames.map ("StateHandle_" ++ ·)⟩]

/-- The four calls of `Codegen::new`, before anything is rendered. (client/codegen_wrapped/src/main.rs:15-22) -/
def newAll (o : Oracle) (ps : Parses) (out manifest : Path) (force : Bool) (d : Disk) :
    List Group → Disk × Outcome (List (List String × List String))
  | [] => (d, .ok [])
  | g :: rest => match new o ps out [manifest ++ ["opaque_template.cs.tpl"], manifest ++ [g.tpl]] force d with
    | (d1, .ok tpl) => match newAll o ps out manifest force d1 rest with
      | (d2, .ok gs) => (d2, .ok ((tpl, g.classes) :: gs))
      | (d2, .err m) => (d2, .err m)
      | (d2, .panic m) => (d2, .panic m)
    | (d1, .err m) => (d1, .err m)
    | (d1, .panic m) => (d1, .panic m)

/-- Rendering the groups: each is attempted, the first error is returned. (client/codegen_wrapped/src/main.rs:24-55) -/
def renderGroups (o : Oracle) (r : Render) (out : Path) (d : Disk) : List (List String × List String) → Disk × Outcome Unit
  | [] => (d, .ok ())
  | g :: rest => match renderList o r out g.1 d g.2 with
    | (d1, r1) => match renderGroups o r out d1 rest with
      | (d2, r2) => (d2, match r1 with
        | .ok () => r2
        | _ => r1)

/-- The output directory of `codegen_wrapped`. (client/codegen_wrapped/src/lib.rs:59-62; the manifest directory is
`client/codegen_wrapped`) -/
def wrappedOut (client : Path) : Path := client ++ ["cs", "src", "generated", "wrapped"]

/-- `main` of `codegen_wrapped`. (client/codegen_wrapped/src/main.rs:12-56) -/
def wrappedMain (o : Oracle) (ps : Parses) (r : Render) (client : Path) (force : Bool) (d : Disk) : Disk × Outcome Unit :=
  match newAll o ps (wrappedOut client) (client ++ ["codegen_wrapped"]) force d wrappedGroups with
  | (d1, .ok gs) => renderGroups o r (wrappedOut client) d1 gs
  | (d1, .err m) => (d1, .err m)
  | (d1, .panic m) => (d1, .panic m)

/-- The types boxed by `RBox_T`. (crates/rsharp/codegen/src/codegen.rs:71-87) -/
def rboxTypes : List String := ["U8", "U16", "U32", "U64", "I8", "I16", "I32", "I64", "Bool", "F32", "F64"]

/-- The output directory of the `RBox` generator. (crates/rsharp/codegen/src/codegen.rs:21-24) -/
def rboxOut (rsharp : Path) : Path := rsharp ++ ["cs", "src", "generated"]

/-- `main` of the `RBox` generator: an error while rendering is a panic. (crates/rsharp/codegen/src/main.rs:15-19, crates/rsharp/codegen/src/codegen.rs:61-67) -/
def rboxMain (o : Oracle) (ps : Parses) (r : Render) (rsharp : Path) (force : Bool) (d : Disk) : Disk × Outcome Unit :=
  let tpl := rsharp ++ ["codegen", "rbox.cs.tpl"]
  match new o ps (rboxOut rsharp) [tpl, tpl] force d with
  | (d1, .ok cs) => match renderList o r (rboxOut rsharp) cs d1 (rboxTypes.map ("RBox_" ++ ·)) with
    | (d2, .ok ()) => (d2, .ok ())
    | (d2, _) => (d2, .panic "Failed to render to file")
  | (d1, .err m) => (d1, .err m)
  | (d1, .panic m) => (d1, .panic m)

end Verif.Codegen
