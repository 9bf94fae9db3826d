import Verif.Spl.Macros
/-
The macro loaders, /repo/python/spl_transpiler/macros.py:15-81.
-/
namespace Verif

/-- What `loader[name]` does: it returns a definition, raises `KeyError`, or raises something else. -/
inductive Loaded where
  | found (d : MacroDef)
  | missing
  | fails
deriving DecidableEq, Repr

/-- A loader, macros.py:21-23 -/
abbrev Loader := Str → Loaded

/-- The definitions `substitute_macros` gets from a loader; every exception ends it. -/
def Loader.defs (l : Loader) (name : Str) : Option MacroDef :=
  match l name with
  | .found d => some d
  | _ => none

/-- A Python `dict` from names to definitions. -/
abbrev Registry := List (Str × MacroDef)

/-- `RegistryMacroLoader.register`, macros.py:31-32 -/
def Registry.register (name : Str) (d : MacroDef) : Registry → Registry
  | [] => [(name, d)]
  | (n, e) :: rest => if n = name then (n, d) :: rest else (n, e) :: Registry.register name d rest

/-- `RegistryMacroLoader.__getitem__`, macros.py:34-35 -/
def Registry.loader (r : Registry) : Loader := fun name =>
  match r.find? (fun e => e.1 == name) with
  | some e => .found e.2
  | none => .missing

/-- `RegistryMacroLoader.__init__`, macros.py:27-29, followed by calls of `register`. -/
def Registry.ofCalls (calls : List (Str × MacroDef)) : Registry :=
  calls.foldl (fun r c => Registry.register c.1 c.2 r) []

/-- Something below the root folder: the name of the file or folder, and, if it is a file, what
reading and validating it gives (`none` for an exception). -/
structure Entry where
  name : Str
  content : Option (Option MacroDef)
deriving DecidableEq, Repr

/-- Matching of one component of a path against a pattern, as `pathlib` does it.  The characters `?` and `[`
that also have a meaning cannot occur in the name of a macro and are not modelled. -/
def globMatch : Str → Str → Bool
  | [], s => s.isEmpty
  | c :: p, s =>
    if c = '*' then (List.range (s.length + 1)).any fun k => globMatch p (s.drop k)
    else match s with
      | [] => false
      | d :: s => c == d && globMatch p s

/-- Two stars in a row somewhere. -/
def twoStars : Str → Bool
  | '*' :: '*' :: _ => true
  | _ :: s => twoStars s
  | [] => false

/-- Names that are one component of a path for `rglob`.  Patterns with `/`, `\` or `**` are not modelled. -/
def OneComponent (name : Str) : Bool :=
  name.all (fun c => c != '/' && c != '\\') && !twoStars name

/-- `FolderMacroLoader.__getitem__`, macros.py:44-61, without the cache.  `other` stands for names that
are not modelled. -/
def folderLoader (other : Loader) (suffix : Str) (tree : List Entry) : Loader := fun name =>
  if OneComponent name then
    match (tree.filter fun e => globMatch (name ++ suffix) e.name).take 2 with
    | [] => .missing
    | [e] => match e.content with
      | none => .missing
      | some none => .fails
      | some (some d) => .found d
    | _ => .fails
  else other name

/-- `CombinedMacroLoader.__getitem__`, macros.py:71-81 -/
def combinedLoader (fallback : Option Loader) : List Loader → Loader
  | [], name => match fallback with
    | some f => f name
    | none => .missing
  | l :: ls, name => match l name with
    | .missing => combinedLoader fallback ls name
    | r => r

/-- The cache of `FolderMacroLoader.__getitem__`, macros.py:43: results returned so far.  Exceptions
are not kept. -/
abbrev Cache := List (Str × MacroDef)

/-- One lookup through the cache while the folder has the contents `tree`. -/
def cachedLookup (other : Loader) (suffix : Str) (tree : List Entry) (cache : Cache) (name : Str) : Loaded × Cache :=
  match cache.find? (fun e => e.1 == name) with
  | some e => (.found e.2, cache)
  | none => match folderLoader other suffix tree name with
    | .found d => (.found d, (name, d) :: cache)
    | r => (r, cache)

/-- A sequence of lookups, each with the contents of the folder at that time. -/
def cachedRun (other : Loader) (suffix : Str) : List (List Entry × Str) → Cache → List Loaded
  | [], _ => []
  | (tree, name) :: rest, cache =>
    let r := cachedLookup other suffix tree cache name
    r.1 :: cachedRun other suffix rest r.2

end Verif
