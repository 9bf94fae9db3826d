import Verif.Spec.Options
/-
How whole queries may be written: commands with their options and arguments, pipes, and searches in brackets.
Keywords may be in any letter case; blanks are free wherever the rules say `Blanks`.
-/
namespace Verif.Spec
open Verif

/-! ### Lists -/

/-- items with separators between them; `sep g t` may look at the text `t` after the separator `g` -/
inductive Items {α : Type} (sep : Str → Str → Prop) (item : α → Str → Prop) : List α → Str → Prop
  | one {a : α} {s : Str} : item a s → Items sep item [a] s
  | cons {a b : α} {as : List α} {g s t : Str} : item a s → sep g t → Items sep item (b :: as) t →
      Items sep item (a :: b :: as) (s ++ (g ++ t))

/-- a comma with or without blanks, or blanks alone -/
def byList (g _ : Str) : Prop := ListSep g

/-- a comma with or without blanks -/
inductive Comma : Str → Prop
  | mk {g₁ g₂ : Str} : Blanks g₁ → Blanks g₂ → Comma (g₁ ++ ',' :: g₂)

def byComma (g _ : Str) : Prop := Comma g

def byGap (g _ : Str) : Prop := Gap g

/-- as `byList`, but after blanks alone the next item does not begin with the letters of AS -/
def byListNotAs (g t : Str) : Prop := Comma g ∨ Gap g ∧ lower (t.take 2) ≠ c!"as"

/-- blanks, and the next item does not begin with the letters of AS -/
def byGapNotAs (g t : Str) : Prop := Gap g ∧ lower (t.take 2) ≠ c!"as"

/-! ### Words -/

/-- a column: a field, or a word with stars -/
def Column (f s : Str) : Prop := f = s ∧ (FieldText s ∨ WildWord s)

/-- a new name: a word or a quoted text -/
inductive NewName : Str → Str → Prop
  | word {w : Str} : IsName w → NewName w w
  | star {w : Str} : WildWord w → NewName w w
  | quoted {s : Str} : Quotable s → NewName s ('"' :: (s ++ c!"\""))

/-- `a AS b` -/
inductive Renamed : Str × Str → Str → Prop
  | mk {f n g₁ k g₂ t : Str} : (FieldText f ∨ WildWord f) → Gap g₁ → lower k = c!"as" → Gap g₂ → NewName n t →
      Renamed (f, n) (f ++ (g₁ ++ (k ++ (g₂ ++ t))))

/-- an integer -/
inductive IntText : Int → Str → Prop
  | mk {n : Int} : isI64 n → IntText n (showInt n)

/-- a truth value -/
inductive BoolText : Bool → Str → Prop
  | yes {w : Str} : lower w ∈ trueWords → BoolText true w
  | no {w : Str} : lower w ∈ falseWords → BoolText false w

/-- a quoted text -/
inductive QuotedText : Str → Str → Prop
  | mk {s : Str} : Quotable s → QuotedText s ('"' :: (s ++ c!"\""))

/-! ### Parts of commands -/

/-- a list that may be empty -/
def Items0 {α : Type} (sep : Str → Str → Prop) (item : α → Str → Prop) (as : List α) (s : Str) : Prop :=
  as = [] ∧ s = [] ∨ Items sep item as s

/-- options and what follows them -/
inductive OptsThen : List (Str × Constant) → Str → Str → Prop
  | none {t : Str} : OptsThen [] t t
  | only {os : List (Str × Constant)} {s : Str} : Opts os s → OptsThen os [] s
  | both {os : List (Str × Constant)} {s g t : Str} : Opts os s → Gap g → t ≠ [] → OptsThen os t (s ++ (g ++ t))

/-- something optional before a text -/
inductive MaybeThen {α : Type} (p : α → Str → Prop) : Option α → Str → Str → Prop
  | none {t : Str} : MaybeThen p none t t
  | some {a : α} {s g t : Str} : p a s → Gap g → MaybeThen p (some a) t (s ++ (g ++ t))

/-- something optional after a text -/
inductive ThenMaybe {α : Type} (p : α → Str → Prop) : Option α → Str → Str → Prop
  | none {t : Str} : ThenMaybe p none t t
  | some {a : α} {s g t : Str} : Gap g → p a s → ThenMaybe p (some a) t (t ++ (g ++ s))

/-- a keyword and what follows it -/
inductive Keyed {α : Type} (kw : Str) (p : α → Str → Prop) : α → Str → Prop
  | mk {a : α} {k g t : Str} : lower k = kw → Gap g → p a t → Keyed kw p a (k ++ (g ++ t))

/-- `key=value` -/
inductive Setting {α : Type} (key : Str) (p : α → Str → Prop) : α → Str → Prop
  | mk {a : α} {k t : Str} : lower k = key → p a t → Setting key p a (k ++ '=' :: t)

/-- `key = value` with or without blanks around the equals sign -/
inductive LooseSetting {α : Type} (key : Str) (p : α → Str → Prop) : α → Str → Prop
  | mk {a : α} {k g₁ g₂ t : Str} : lower k = key → Blanks g₁ → Blanks g₂ → p a t → LooseSetting key p a (k ++ (g₁ ++ '=' :: (g₂ ++ t)))

/-- one assignment of `eval` -/
inductive Assignment : Str × Expr → Str → Prop
  | mk {f g₁ g₂ s : Str} {e : Expr} : Column f f → Blanks g₁ → Blanks g₂ → Written 9 e s →
      Assignment (f, e) (f ++ (g₁ ++ '=' :: (g₂ ++ s)))

/-- the field of `bin` -/
inductive BinField : FieldOrAlias → Str → Prop
  | plain {f : Str} : Column f f → BinField (.field f) f
  | named {f n s : Str} : Renamed (f, n) s → BinField (.alias f n) s

/-- one conversion of `convert` -/
inductive Conversion : FieldConversion → Str → Prop
  | plain {f x g₁ g₂ : Str} : IsName f → Column x x → Blanks g₁ → Blanks g₂ → Conversion ⟨f, x, none⟩ (f ++ '(' :: (g₁ ++ (x ++ (g₂ ++ c!")"))))
  | named {f x n k g₁ g₂ g₃ g₄ : Str} : IsName f → Column x x → Column n n → Blanks g₁ → Blanks g₂ → Gap g₃ → lower k = c!"as" → Gap g₄ →
      Conversion ⟨f, x, some n⟩ (f ++ '(' :: (g₁ ++ (x ++ (g₂ ++ ')' :: (g₃ ++ (k ++ (g₄ ++ n)))))))

/-- one function of `stats`, `eventstats` and `streamstats` -/
inductive StatItem : Expr → Str → Prop
  | word {f : Str} : IsField f → StatItem (.call f []) f
  | wordAs {f n g₁ k g₂ t : Str} : IsField f → Gap g₁ → lower k = c!"as" → Gap g₂ → NewName n t →
      StatItem (.alias (.call f []) n) (f ++ (g₁ ++ (k ++ (g₂ ++ t))))
  | call {f : Str} {es : List Expr} {g₁ g₂ s : Str} : IsName f → Blanks g₁ → Blanks g₂ → WrittenArgs es s →
      StatItem (.call f es) (f ++ '(' :: (g₁ ++ (s ++ (g₂ ++ c!")"))))
  | callAs {f : Str} {es : List Expr} {g₁ g₂ s g₃ k g₄ n : Str} : IsName f → Blanks g₁ → Blanks g₂ → WrittenArgs es s →
      Gap g₃ → lower k = c!"as" → Gap g₄ → (IsName n ∨ WildWord n) →
      StatItem (.alias (.call f es) n) (f ++ '(' :: (g₁ ++ (s ++ (g₂ ++ ')' :: (g₃ ++ (k ++ (g₄ ++ n)))))))

/-- a BY field, with or without a span -/
inductive ByField : SpField → Str → Prop
  | plain {f : Str} : Column f f → ByField ⟨f, none⟩ f
  | span {f g k g₂ m s u : Str} {n : Nat} : Column f f → Gap g → lower k = c!"span" → Blanks g₂ → n < 2 ^ 63 →
      (s, u) ∈ unitSpellings → lower m = s → ByField ⟨f, some ⟨n, u⟩⟩ (f ++ (g ++ (k ++ '=' :: (g₂ ++ (showNat n ++ m)))))

/-- a sort key -/
inductive SortKey : Option Str × Expr → Str → Prop
  | plain {e : Expr} {s : Str} : Written 9 e s → (∀ c t, s = c :: t → c ≠ '-') → SortKey (none, e) s
  | up {e : Expr} {s : Str} : Written 9 e s → SortKey (some c!"+", e) ('+' :: s)
  | down {e : Expr} {s : Str} : Written 9 e s → SortKey (some c!"-", e) ('-' :: s)

/-- a text that is not read as a row count -/
def NoCount (s : Str) : Prop :=
  (∀ c t, s = c :: t → isDig c = false) ∧ (∀ c d t, s = c :: d :: t → c = '-' ∨ c = '+' → isDig d = false) ∧
  lower (s.take 6) ≠ c!"limit="

/-- the row count of `sort` -/
inductive SortCount : Int → Str → Prop
  | plain {n : Int} {s : Str} : IntText n s → SortCount n s
  | limit {n : Int} {k g s : Str} : lower k = c!"limit" → Blanks g → IntText n s → SortCount n (k ++ '=' :: (g ++ s))

/-- the keys of `dedup sortby` -/
inductive DedupKey : Option Str × Str → Str → Prop
  | plain {f : Str} : Column f f → DedupKey (none, f) f
  | up {f : Str} : Column f f → DedupKey (some c!"+", f) ('+' :: f)
  | down {f : Str} : Column f f → DedupKey (some c!"-", f) ('-' :: f)

/-- a column other than the given keyword -/
def ColumnNot (kw f s : Str) : Prop := Column f s ∧ lower f ≠ kw

/-- a word or a quoted text -/
inductive WordOrQuoted : Str → Str → Prop
  | word {w : Str} : IsName w → WordOrQuoted w w
  | number {n : Int} : isI64 n → WordOrQuoted (showInt n) (showInt n)
  | quoted {s : Str} : Quotable s → WordOrQuoted s ('"' :: (s ++ c!"\""))

/-- the fields of `lookup` -/
inductive LookupField : FieldLike → Str → Prop
  | plain {f : Str} : ColumnNot c!"output" f f → LookupField (.field f) f
  | named {f n s : Str} : Renamed (f, n) s → lower n ≠ c!"output" → LookupField (.aliased f n) s

/-- what `head` counts -/
inductive HeadCount : Expr → Str → Prop
  | int {n : Int} {s : Str} : IntText n s → HeadCount (.const (.int n)) s
  | limit {n : Int} {k g s : Str} : lower k = c!"limit" → Blanks g → IntText n s → HeadCount (.const (.int n)) (k ++ '=' :: (g ++ s))
  | cond {e : Expr} {s : Str} : Written 9 e s → NoCount s → HeadCount e s

/-- what `return` returns -/
inductive ReturnItems : List FieldOrAlias → Str → Prop
  | pairs {vs : List (Str × Str)} {s : Str} : Items byGap (fun v t => ∃ k g₁ g₂ u, v.1 = k ∧ IsName k ∧ Blanks g₁ ∧ Blanks g₂ ∧ WordOrQuoted v.2 u ∧
      t = k ++ (g₁ ++ '=' :: (g₂ ++ u))) vs s → ReturnItems (vs.map fun v => .alias v.2 v.1) s
  | values {fs : List Str} {s : Str} : Items byGap (fun f t => Column f f ∧ t = '$' :: f) fs s → ReturnItems (fs.map .field) s
  | plain {fs : List Str} {s : Str} : Items byGap Column fs s → ReturnItems (fs.map .field) s

/-- the path of `spath` -/
inductive PathText : Str → Str → Prop
  | word {w : Str} : FieldText w → PathText w w
  | quoted {s : Str} : Quotable s → PathText s ('"' :: (s ++ c!"\""))

/-- a text after blanks that does not begin with an operator -/
structure NoOperator (t : Str) : Prop where
  first : ∀ c u, t = c :: u → c ∉ c!"*/+-.=:!<>"
  noOr : lower (t.take 2) ≠ c!"or"
  noAnd : lower (t.take 3) ≠ c!"and"
  noIn : lower (t.take 2) = c!"in" → ∀ u, (t.drop 2).dropWhile (· ∈ c!" \t\r\n") ≠ '(' :: u

/-- the terms of `search` stand side by side or are separated by commas -/
def byTerm (g t : Str) : Prop := Comma g ∨ Gap g ∧ NoOperator t

/-- names with dots between them -/
inductive DottedName : Str → Prop
  | one {w : Str} : IsName w → DottedName w
  | dot {w p : Str} : IsName w → DottedName p → DottedName (w ++ '.' :: p)

/-- a function of a field in `tstats` -/
inductive TsCall : Expr → Str → Prop
  | plain {f x : Str} : IsName f → Column x x → TsCall (.call f [.const (.field x)]) (f ++ '(' :: (x ++ c!")"))
  | named {f x g₁ k g₂ n : Str} : IsName f → Column x x → Gap g₁ → lower k = c!"as" → Gap g₂ → IsName n →
      TsCall (.alias (.call f [.const (.field x)]) n) (f ++ '(' :: (x ++ ')' :: (g₁ ++ (k ++ (g₂ ++ n)))))

/-- the functions of `tstats`; `count` of a field only at the end, and then (with `true`) a blank or the end of the text must follow -/
inductive TsItems : Bool → List Expr → Str → Prop
  | call {e : Expr} {s : Str} : TsCall e s → TsItems false [e] s
  | count {k : Str} : lower k = c!"count" → TsItems false [.call c!"count" []] k
  | countAs {k g₁ a g₂ n : Str} : lower k = c!"count" → Gap g₁ → lower a = c!"as" → Gap g₂ → IsName n →
      TsItems false [.alias (.call c!"count" []) n] (k ++ (g₁ ++ (a ++ (g₂ ++ n))))
  | countOf {k g f : Str} : lower k = c!"count" → Gap g → Column f f → TsItems true [.call c!"count" [.const (.field f)]] (k ++ (g ++ f))
  | callThen {b : Bool} {e : Expr} {es : List Expr} {s g t : Str} : TsCall e s → Gap g → TsItems b es t → TsItems b (e :: es) (s ++ (g ++ t))
  | countThen {b : Bool} {e : Expr} {es : List Expr} {k g s t : Str} : lower k = c!"count" → Gap g → TsCall e s → TsItems b (e :: es) (s ++ t) →
      TsItems b (.call c!"count" [] :: e :: es) (k ++ (g ++ (s ++ t)))
  | countAsThen {b : Bool} {es : List Expr} {k g₁ a g₂ n g t : Str} : lower k = c!"count" → Gap g₁ → lower a = c!"as" → Gap g₂ → IsName n →
      Gap g → TsItems b es t → TsItems b (.alias (.call c!"count" []) n :: es) (k ++ (g₁ ++ (a ++ (g₂ ++ (n ++ (g ++ t))))))

/-- the data model of `tstats` -/
inductive TsFrom : Str × Option Str → Str → Prop
  | model {k g d g₂ m : Str} : lower k = c!"from" → Gap g → lower d = c!"datamodel" → Blanks g₂ → DottedName m →
      TsFrom (m, none) (k ++ (g ++ (d ++ '=' :: (g₂ ++ m))))
  | node {k g d g₂ m g₃ w g₄ x n : Str} : lower k = c!"from" → Gap g → lower d = c!"datamodel" → Blanks g₂ → DottedName m →
      Gap g₃ → lower w = c!"where" → Gap g₄ → lower x = c!"nodename" → DottedName n →
      TsFrom (m, some n) (k ++ (g ++ (d ++ '=' :: (g₂ ++ (m ++ (g₃ ++ (w ++ (g₄ ++ (x ++ '=' :: n)))))))))

/-- a condition that is not read as the node name of the data model -/
def TsCond (e : Expr) (s : Str) : Prop := CondOr e s ∧ lower (s.take 9) ≠ c!"nodename="

/-- a text between quotes with the quotes and backslashes in it hidden by backslashes -/
def hideQuotes : Str → Str
  | [] => []
  | c :: t => if c = '"' ∨ c = '\\' then '\\' :: c :: hideQuotes t else c :: hideQuotes t

/-- the names of the commands -/
def commandNames : List Str := [c!"addtotals", c!"bin", c!"bucket", c!"collect", c!"convert", c!"datamodel", c!"dedup", c!"eval",
  c!"eventstats", c!"fields", c!"fillnull", c!"format", c!"head", c!"inputlookup", c!"join", c!"lookup", c!"makeresults", c!"map",
  c!"multisearch", c!"mvcombine", c!"mvexpand", c!"rare", c!"regex", c!"rename", c!"return", c!"rex", c!"sort", c!"spath", c!"stats",
  c!"streamstats", c!"table", c!"tail", c!"top", c!"tstats", c!"where", c!"search"]

/-- the text does not begin with the name of a command -/
def NoCommand (s : Str) : Prop := ∀ kw ∈ commandNames, lower (s.take kw.length) = kw →
  ∃ c t, s.drop kw.length = c :: t ∧ c ∉ c!" \t\r\n"

/-- how `datamodel` is told what to return -/
def modelModes : List Str := [c!"search", c!"flat", c!"acceleration_search"]

/-- the words after the options of `datamodel`: model, dataset and mode; each may be left out if those after it are -/
inductive ModelWords : Option Str → Option Str → Option Str → Str → Prop
  | none : ModelWords none none none []
  | model {a : Str} : Column a a → a ∉ modelModes → ModelWords (some a) none none a
  | dataset {a b g : Str} : Column a a → a ∉ modelModes → Gap g → Column b b → b ∉ modelModes → ModelWords (some a) (some b) none (a ++ (g ++ b))
  | mode {a b m g₁ g₂ : Str} : Column a a → a ∉ modelModes → Gap g₁ → Column b b → b ∉ modelModes → Gap g₂ → m ∈ modelModes →
      ModelWords (some a) (some b) (some m) (a ++ (g₁ ++ (b ++ (g₂ ++ m))))

/-! ### Commands -/

/-- `Body b kw c s`: the command `c` with the name `kw` is written with `s` after its name.  With `b`, a blank or the
end of the text must follow.  Commands with searches in brackets are in `CmdText`. -/
inductive Body : Bool → Str → Command → Str → Prop
  | addtotals {os : List (Str × Constant)} {a : AddTotals} {t s : Str} : OptsThen os t s → OptsOf os (.addTotals a) →
      Items0 byGap Column a.fields t → Body false c!"addtotals" (.addTotals a) s
  | bin {kw : Str} {os : List (Str × Constant)} {a : Bin} {t s : Str} : kw ∈ [c!"bin", c!"bucket"] → OptsThen os t s → OptsOf os (.bin a) →
      BinField a.field t → Body false kw (.bin a) s
  | collect {os : List (Str × Constant)} {a : Collect} {t s : Str} : OptsThen os t s → OptsOf os (.collect a) →
      Items0 byList Column a.fields t → Body false c!"collect" (.collect a) s
  | convert {os : List (Str × Constant)} {f : Str} {cs : List FieldConversion} {t s : Str} : OptsThen os t s → OptsOf os (.convert f cs) →
      Items byGapNotAs Conversion cs t → Body false c!"convert" (.convert f cs) s
  | datamodel {os : List (Str × Constant)} {a : DataModel} {t s : Str} : OptsThen os t s → OptsOf os (.dataModel a) →
      ModelWords a.dataModelName a.datasetName a.searchMode t → Body false c!"datamodel" (.dataModel a) s
  | dedup {os : List (Str × Constant)} {n : Option Int} {fs : List Str} {x y z : Bool} {ks : Option (List (Option Str × Str))} {s t u v : Str} :
      Items byGap (ColumnNot c!"sortby") fs v → ThenMaybe (Keyed c!"sortby" (Items byGap DedupKey)) ks v u → OptsThen os u t →
      MaybeThen IntText n t s → OptsOf os (.dedup (n.getD 1) fs x y z (ks.getD [(some c!"+", c!"_no")])) →
      Body false c!"dedup" (.dedup (n.getD 1) fs x y z (ks.getD [(some c!"+", c!"_no")])) s
  | eval {as : List (Str × Expr)} {s : Str} : Items byComma Assignment as s → Body false c!"eval" (.eval as) s
  | eventstats {os : List (Str × Constant)} {a : Bool} {fs : List Expr} {by_ : Option (List Str)} {t u s : Str} :
      Items byListNotAs StatItem fs t → ThenMaybe (Keyed c!"by" (Items byList Column)) by_ t u → OptsThen os u s →
      OptsOf os (.eventStats a fs (by_.getD [])) → Body false c!"eventstats" (.eventStats a fs (by_.getD [])) s
  | fields {fs : List Str} {s : Str} : Items byList Column fs s → Body false c!"fields" (.fields false fs) s
  | fieldsKeep {fs : List Str} {g s : Str} : Blanks g → Items byList Column fs s → Body false c!"fields" (.fields false fs) ('+' :: (g ++ s))
  | fieldsDrop {fs : List Str} {g s : Str} : Blanks g → Items byList Column fs s → Body false c!"fields" (.fields true fs) ('-' :: (g ++ s))
  | fillnull {v w : Str} : WordOrQuoted v w → Body false c!"fillnull" (.fillNull v none) (c!"value=" ++ w)
  | fillnullIn {v : Option Str} {fs : List Str} {t s : Str} : Items byGap Column fs t →
      MaybeThen (fun v u => ∃ w, WordOrQuoted v w ∧ u = c!"value=" ++ w) v t s →
      Body false c!"fillnull" (.fillNull (v.getD c!"0") (some fs)) s
  | fillnullAll : Body false c!"fillnull" (.fillNull c!"0" none) []
  | format {os : List (Str × Constant)} {a : Format} {s : Str} : OptsThen os [] s → OptsOf os (.format a) →
      (a.rowPrefix, a.colPrefix, a.colSep, a.colEnd, a.rowSep, a.rowEnd) = (c!"(", c!"(", c!"AND", c!")", c!"OR", c!")") →
      Body false c!"format" (.format a) s
  | formatWith {os : List (Str × Constant)} {a : Format} {t s : Str} : OptsThen os t s → OptsOf os (.format a) →
      Items byGap QuotedText [a.rowPrefix, a.colPrefix, a.colSep, a.colEnd, a.rowSep, a.rowEnd] t → Body false c!"format" (.format a) s
  | head {e : Expr} {x y : Option Bool} {t u s : Str} : HeadCount e t → ThenMaybe (Setting c!"keeplast" BoolText) x t u →
      ThenMaybe (Setting c!"null" BoolText) y u s → Body (x.isSome || y.isSome) c!"head" (.head e (x.getD false) (y.getD false)) s
  | inputlookup {os : List (Str × Constant)} {a b : Bool} {m n : Int} {f : Str} {w : Option Expr} {t s : Str} : (IsName f ∨ WildWord f) →
      ThenMaybe (Keyed c!"where" (Written 9)) w f t → OptsThen os t s → OptsOf os (.inputLookup a b m n f w) →
      Body false c!"inputlookup" (.inputLookup a b m n f w) s
  | lookup {a : Lookup} {g t u : Str} : IsName a.dataset → Gap g → Items byListNotAs LookupField a.fields t →
      ThenMaybe (fun (o : LookupOutput) u => ∃ g v, lower o.kv = c!"output" ∧ byGapNotAs g v ∧ Items byListNotAs LookupField o.fields v ∧ u = o.kv ++ (g ++ v))
        a.output t u → Body false c!"lookup" (.lookup a) (a.dataset ++ (g ++ u))
  | makeresults {os : List (Str × Constant)} {a : MakeResults} {s : Str} : OptsThen os [] s → OptsOf os (.makeResults a) →
      Body false c!"makeresults" (.makeResults a) s
  | mvcombine {d : Option Str} {f s : Str} : Column f f → MaybeThen (LooseSetting c!"delim" QuotedText) d f s → Body false c!"mvcombine" (.mvCombine d f) s
  | mvexpand {n : Option Int} {f s : Str} : Column f f → ThenMaybe (LooseSetting c!"limit" IntText) n f s → Body false c!"mvexpand" (.mvExpand f n) s
  | rare {os : List (Str × Constant)} {n : Option Int} {m : Nat} {a : TopRare} {t u v s : Str} : Items byList Column a.fields t →
      ThenMaybe (Keyed c!"by" (Items byList Column)) a.by_ t u → OptsThen os u v → MaybeThen IntText n v s → OptsOf os (.rare { a with n := m }) →
      (a.n : Int) = n.getD m % 2 ^ 64 → Body false c!"rare" (.rare a) s
  | regex {r s : Str} : QuotedText r s → Body false c!"regex" (.regex none r) s
  | regexOf {f op r g₁ g₂ s : Str} : Column f f → op ∈ [c!"=", c!"!="] → Blanks g₁ → Blanks g₂ → QuotedText r s →
      Body false c!"regex" (.regex (some (f, op)) r) (f ++ (g₁ ++ (op ++ (g₂ ++ s))))
  | rename {as : List (Str × Str)} {s : Str} : Items byComma Renamed as s → Body false c!"rename" (.rename as) s
  | return_ {n : Option Int} {fs : List FieldOrAlias} {t s : Str} : ReturnItems fs t → MaybeThen IntText n t s →
      Body false c!"return" (.return_ (n.getD 1) fs) s
  | rex {os : List (Str × Constant)} {a : Rex} {t s : Str} : OptsThen os t s → OptsOf os (.rex a) → QuotedText a.regex t → Body false c!"rex" (.rex a) s
  | sort {ks : List (Option Str × Expr)} {n : Option Int} {d : Option Unit} {t u s : Str} : Items byComma SortKey ks t →
      ThenMaybe (fun _ k => lower k = c!"desc") d t u → (n = none → NoCount t) → MaybeThen SortCount n u s →
      Body false c!"sort" (.sort ks (n.getD 10000) d.isSome) s
  | spath {i o : Option Str} {p w t u s : Str} : PathText p w → t = w ∨ (∃ k, lower k = c!"path=" ∧ t = k ++ w) →
      MaybeThen (Setting c!"output" Column) o t u → MaybeThen (Setting c!"input" Column) i u s → Body false c!"spath" (.spath p (i.getD c!"_raw") o) s
  | stats {os : List (Str × Constant)} {o : StatsOpts} {fs : List Expr} {by_ : Option (List SpField)} {t u s : Str} :
      Items byListNotAs StatItem fs t → ThenMaybe (Keyed c!"by" (Items byList ByField)) by_ t u → OptsThen os u s →
      OptsOf os (.stats o fs by_ false) → Body false c!"stats" (.stats o fs by_ false) s
  | streamstats {os : List (Str × Constant)} {a : Bool} {n : Int} {fs : List Expr} {by_ : Option (List SpField)} {t u s : Str} :
      Items byListNotAs StatItem fs t → ThenMaybe (Keyed c!"by" (Items byList ByField)) by_ t u → OptsThen os u s →
      OptsOf os (.streamStats fs (by_.getD []) a n) → Body false c!"streamstats" (.streamStats fs (by_.getD []) a n) s
  | table {fs : List Str} {s : Str} : Items byList Column fs s → Body false c!"table" (.table fs) s
  | tail {n : Nat} {s : Str} : IntText n s → Body false c!"tail" (.tail n) s
  | top {os : List (Str × Constant)} {n : Option Int} {m : Nat} {a : TopRare} {t u v s : Str} : Items byList Column a.fields t →
      ThenMaybe (Keyed c!"by" (Items byList Column)) a.by_ t u → OptsThen os u v → MaybeThen IntText n v s → OptsOf os (.top { a with n := m }) →
      (a.n : Int) = n.getD m % 2 ^ 64 → Body false c!"top" (.top a) s
  | tstats {os : List (Str × Constant)} {o : TStatsOpts} {b : Bool} {es : List Expr} {m : Option (Str × Option Str)} {w : Option Expr}
      {by_ : Option (List SpField)} {t u v x s : Str} : TsItems b es t → ThenMaybe TsFrom m t u → ThenMaybe (Keyed c!"where" TsCond) w u v →
      ThenMaybe (Keyed c!"by" (Items byList ByField)) by_ v x → OptsThen os x s →
      OptsOf os (.tstats o es (m.map Prod.fst) (m.bind Prod.snd) w by_ none) →
      Body (b && m.isNone && w.isNone && by_.isNone) c!"tstats" (.tstats o es (m.map Prod.fst) (m.bind Prod.snd) w by_ none) s
  | where_ {e : Expr} {s : Str} : CondOr e s → Body false c!"where" (.where_ e) s
  | search {e : Expr} {es : List Expr} {s : Str} : Items byTerm (Written 9) (e :: es) s → Body false c!"search" (.search (joinLeft c!"AND" e es)) s

mutual
/-- how a command is written; with `true`, a blank or the end of the text must follow -/
inductive CmdText : Bool → Command → Str → Prop
  | named {b : Bool} {kw k g s : Str} {c : Command} : Body b kw c s → lower k = kw → s ≠ [] → Gap g → CmdText b c (k ++ (g ++ s))
  | bare {kw k : Str} {c : Command} : Body false kw c [] → lower k = kw → CmdText true c k
  | implicit {e : Expr} {es : List Expr} {s : Str} : Items byTerm (Written 9) (e :: es) s → NoCommand s →
      CmdText false (.search (joinLeft c!"AND" e es)) s
  | join {os : List (Str × Constant)} {o : JoinOpts} {fs : List Str} {cs : List Command} {k g g₂ s t u : Str} : lower k = c!"join" → Gap g →
      Items byList Column fs t → Blanks g₂ → SubText cs u → OptsThen os (t ++ (g₂ ++ u)) s → OptsOf os (.join o fs cs) →
      CmdText false (.join o fs cs) (k ++ (g ++ s))
  | multisearch {cs : List (List Command)} {k g s : Str} : lower k = c!"multisearch" → Gap g → SubsText cs s → 2 ≤ cs.length →
      CmdText false (.multiSearch cs) (k ++ (g ++ s))
  | map {os : Option (List (Str × Constant))} {cs : List Command} {n : Int} {k g kw g₁ g₂ t s : Str} : lower k = c!"map" → Gap g →
      lower kw = c!"search" → Blanks g₁ → Blanks g₂ → QueryText cs t → ThenMaybe Opts os ('"' :: (hideQuotes t ++ c!"\"")) s →
      IntOr (os.getD []) c!"maxsearches" 10 n → CmdText false (.map cs n) (k ++ (g ++ (kw ++ (g₁ ++ '=' :: (g₂ ++ s)))))

/-- commands with pipes between them -/
inductive PipeText : Bool → List Command → Str → Prop
  | one {b : Bool} {c : Command} {s : Str} : CmdText b c s → PipeText b [c] s
  | cons {b b' : Bool} {c c' : Command} {cs : List Command} {s g₁ g₂ t : Str} : CmdText b c s → Blanks g₁ → (b = true → g₁ ≠ []) → Blanks g₂ →
      PipeText b' (c' :: cs) t → PipeText b' (c :: c' :: cs) (s ++ (g₁ ++ '|' :: (g₂ ++ t)))

/-- a search in brackets -/
inductive SubText : List Command → Str → Prop
  | plain {b : Bool} {cs : List Command} {g₁ g₂ s : Str} : Blanks g₁ → PipeText b cs s → Blanks g₂ → (b = true → g₂ ≠ []) →
      SubText cs ('[' :: (g₁ ++ (s ++ (g₂ ++ c!"]"))))
  | piped {b : Bool} {cs : List Command} {g₀ g₁ g₂ s : Str} : Blanks g₀ → Blanks g₁ → PipeText b cs s → Blanks g₂ → (b = true → g₂ ≠ []) →
      SubText cs ('[' :: (g₀ ++ '|' :: (g₁ ++ (s ++ (g₂ ++ c!"]")))))

/-- searches in brackets one after another -/
inductive SubsText : List (List Command) → Str → Prop
  | last {p : List Command} {s : Str} : SubText p s → SubsText [p] s
  | more {p : List Command} {ps : List (List Command)} {s g t : Str} : SubText p s → Blanks g → SubsText ps t → SubsText (p :: ps) (s ++ (g ++ t))
/-- a whole query -/
inductive QueryText : List Command → Str → Prop
  | direct {b : Bool} {cs : List Command} {g₁ g₂ s : Str} : Blanks g₁ → PipeText b cs s → Blanks g₂ → QueryText cs (g₁ ++ (s ++ g₂))
  | afterBar {b : Bool} {cs : List Command} {g₀ g₁ g₂ s : Str} : Blanks g₀ → Blanks g₁ → PipeText b cs s → Blanks g₂ →
      QueryText cs (g₀ ++ '|' :: (g₁ ++ (s ++ g₂)))
end

end Verif.Spec
