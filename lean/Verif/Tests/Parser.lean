import Verif.Spl.Grammar
import Verif.Spl.Eq
/-
The parser unit tests of the repository, as examples about the model of the parser.

Each example cites the assertion it was transcribed from.  The expected value is the one written
in the Rust test; the model is run on the same input and must leave the same rest and give the
same tree.  These are tests of the model against the authors' expectations, not proofs of
properties: they show on particular inputs that the model parses as the code is expected to.
-/
namespace Verif.Tests.Parser
open Verif

/-- the parser accepts `s`, leaves `rest` and gives a value `v` with `eq v` -/
def gives {R : Type} [Env R] {g c : Bool} {α : Type} (p : P R g c α) (r : R) (s rest : Str)
    (eq : α → Bool) : Bool :=
  match p.run r s with
  | some (t, v) => decide (t = rest) && eq v
  | none => false

/-- the parser accepts `s` -/
def accepts {R : Type} [Env R] {g c : Bool} {α : Type} (p : P R g c α) (r : R) (s : Str) : Bool :=
  (p.run r s).isSome

/-- the parser rejects `s` -/
def rejects {R : Type} [Env R] {g c : Bool} {α : Type} (p : P R g c α) (r : R) (s : Str) : Bool :=
  (p.run r s).isNone

/-- the parser does not consume all of `s` -/
def rejectsAll {R : Type} [Env R] {g c : Bool} {α : Type} (p : P R g c α) (r : R) (s : Str) : Bool :=
  match p.run r s with
  | some (t, _) => !t.isEmpty
  | none => true

/- commands/cmd_add_totals/spl.rs:113 -/
example : gives Spl.command Spl.fix c!"addtotals row=t col=f fieldname=num_total num_1 num_2" c!"" (eqC · (.addTotals ⟨[c!"num_1", c!"num_2"], true, false, c!"num_total", none, c!"Total"⟩)) = true := by decide +kernel

/- commands/cmd_bin/spl.rs:114 -/
example : gives Spl.command Spl.fix c!"bin span=30m minspan=5m bins=20 start=0 end=20 aligntime=latest foo AS bar" c!"" (eqC · (.bin ⟨(.alias c!"foo" c!"bar"), (some ⟨30, c!"minutes"⟩), (some ⟨5, c!"minutes"⟩), (some 20), (some 0), (some 20), (some c!"latest")⟩)) = true := by decide +kernel

/- commands/cmd_collect/spl.rs:186 -/
example : gives Spl.pipeline Spl.fix c!"collect index=threathunting addtime=f x, y,  z" c!"" (eqP · [(.collect ⟨c!"threathunting", [c!"x", c!"y", c!"z"], false, none, none, none, c!"raw", false, true, none, none, false⟩)]) = true := by decide +kernel

/- commands/cmd_convert/spl.rs:106 -/
example : gives Spl.convert Spl.fix c!"convert ctime(indextime)" c!"" (eqC · (.convert c!"%m/%d/%Y %H:%M:%S" [⟨c!"ctime", c!"indextime", none⟩])) = true := by decide +kernel

/- commands/cmd_dedup/spl.rs:157 -/
example : gives Spl.dedup Spl.fix c!"dedup 10 keepevents=true keepempty=false consecutive=true host ip port" c!"" (eqC · (.dedup 10 [c!"host", c!"ip", c!"port"] true false true [((some c!"+"), c!"_no")])) = true := by decide +kernel

/- commands/cmd_dedup/spl.rs:204 -/
example : gives Spl.dedup Spl.fix c!"dedup 10 keepevents=true host ip port sortby +host -ip" c!"" (eqC · (.dedup 10 [c!"host", c!"ip", c!"port"] true false false [((some c!"+"), c!"host"), ((some c!"-"), c!"ip")])) = true := by decide +kernel

/- commands/cmd_eval/spl.rs:65 -/
example : gives Spl.eval Spl.fix c!"eval mitre_category=\"Discovery\"" c!"" (eqC · (.eval [(c!"mitre_category", (.const (.str c!"Discovery")))])) = true := by decide +kernel

/- commands/cmd_eval/spl.rs:87 -/
example : gives Spl.eval Spl.fix c!"eval email_lower=lower(email)" c!"" (eqC · (.eval [(c!"email_lower", (.call c!"lower" [(.const (.field c!"email"))]))])) = true := by decide +kernel

/- commands/cmd_eval/spl.rs:110 -/
example : gives Spl.callExpr Spl.fix c!"replace(email, \"@.+\", \"\")" c!"" (eqE · (.call c!"replace" [(.const (.field c!"email")), (.const (.str c!"@.+")), (.const (.str c!""))])) = true := by decide +kernel

/- commands/cmd_eval/spl.rs:121 -/
example : gives Spl.expr Spl.fix c!"replace(email, \"@.+\", \"\")" c!"" (eqE · (.call c!"replace" [(.const (.field c!"email")), (.const (.str c!"@.+")), (.const (.str c!""))])) = true := by decide +kernel

/- commands/cmd_eval/spl.rs:137 -/
example : gives Spl.eval Spl.fix c!"eval replaced=replace(email, \"@.+\", \"\")" c!"" (eqC · (.eval [(c!"replaced", (.call c!"replace" [(.const (.field c!"email")), (.const (.str c!"@.+")), (.const (.str c!""))]))])) = true := by decide +kernel

/- commands/cmd_eval/spl.rs:165 -/
example : gives Spl.eval Spl.fix c!"eval hash_sha256= lower(hash_sha256), b=c" c!"" (eqC · (.eval [(c!"hash_sha256", (.call c!"lower" [(.const (.field c!"hash_sha256"))])), (c!"b", (.const (.field c!"c")))])) = true := by decide +kernel

/- commands/cmd_eval/spl.rs:185 -/
example : gives Spl.eval Spl.fix c!"eval key='dest.workload.name' + \":\" + 'dest.process.name'" c!"" (eqC · (.eval [(c!"key", (.binary (.const (.field c!"dest.workload.name")) c!"+" (.binary (.const (.str c!":")) c!"+" (.const (.field c!"dest.process.name")))))])) = true := by decide +kernel

/- commands/cmd_event_stats/spl.rs:91 -/
example : gives Spl.command Spl.fix c!"eventstats min(n) by gender" c!"" (eqC · (.eventStats false [(.call c!"min" [(.const (.field c!"n"))])] [c!"gender"])) = true := by decide +kernel

/- commands/cmd_fill_null/spl.rs:77 -/
example : gives Spl.fillNull Spl.fix c!"fillnull" c!"" (eqC · (.fillNull c!"0" none)) = true := by decide +kernel

/- commands/cmd_fill_null/spl.rs:95 -/
example : gives Spl.fillNull Spl.fix c!"fillnull value=\"NA\"" c!"" (eqC · (.fillNull c!"NA" none)) = true := by decide +kernel

/- commands/cmd_fill_null/spl.rs:118 -/
example : gives Spl.fillNull Spl.fix c!"fillnull value=\"NULL\" host port" c!"" (eqC · (.fillNull c!"NULL" (some [c!"host", c!"port"]))) = true := by decide +kernel

/- commands/cmd_format/spl.rs:133 -/
example : gives Spl.format Spl.fix c!"format maxresults=10" c!"" (eqC · (.format ⟨c!"OR", 10, c!"(", c!"(", c!"AND", c!")", c!"OR", c!")"⟩)) = true := by decide +kernel

/- commands/cmd_format/spl.rs:166 -/
example : gives Spl.format Spl.fix c!"format mvsep=\"||\" \"[\" \"[\" \"&&\" \"]\" \"||\" \"]\"" c!"" (eqC · (.format ⟨c!"||", 0, c!"[", c!"[", c!"&&", c!"]", c!"||", c!"]"⟩)) = true := by decide +kernel

/- commands/cmd_head/spl.rs:96 -/
example : gives Spl.head Spl.fix c!"head 20" c!"" (eqC · (.head (.const (.int 20)) false false)) = true := by decide +kernel

/- commands/cmd_head/spl.rs:120 -/
example : gives Spl.head Spl.fix c!"head limit=400" c!"" (eqC · (.head (.const (.int 400)) false false)) = true := by decide +kernel

/- commands/cmd_head/spl.rs:145 -/
example : gives Spl.head Spl.fix c!"head limit=400 keeplast=true null=false" c!"" (eqC · (.head (.const (.int 400)) true false)) = true := by decide +kernel

/- commands/cmd_head/spl.rs:174 -/
example : gives Spl.head Spl.fix c!"head count>10" c!"" (eqC · (.head (.binary (.const (.field c!"count")) c!">" (.const (.int 10))) false false)) = true := by decide +kernel

/- commands/cmd_head/spl.rs:189 -/
example : gives Spl.head Spl.fix c!"head count>=10 keeplast=true" c!"" (eqC · (.head (.binary (.const (.field c!"count")) c!">=" (.const (.int 10))) true false)) = true := by decide +kernel

/- commands/cmd_input_lookup/spl.rs:113 -/
example : gives Spl.inputLookup Spl.fix c!"inputlookup append=t strict=f myTable where test_id=11" c!"" (eqC · (.inputLookup true false 0 1000000000 c!"myTable" (some (.binary (.const (.field c!"test_id")) c!"=" (.const (.int 11)))))) = true := by decide +kernel

/- commands/cmd_input_lookup/spl.rs:142 -/
example : gives Spl.inputLookup Spl.fix c!"inputlookup myTable" c!"" (eqC · (.inputLookup false false 0 1000000000 c!"myTable" none)) = true := by decide +kernel

/- commands/cmd_join/spl.rs:124 -/
example : gives Spl.join Spl.fix c!"join product_id [search vendors]" c!"" (eqC · (.join ⟨c!"inner", false, true, true, 1⟩ [c!"product_id"] [(.search (.const (.field c!"vendors")))])) = true := by decide +kernel

/- commands/cmd_join/spl.rs:168 -/
example : gives Spl.join Spl.fix c!"join type=left usetime=true earlier=false overwrite=false product_id, host, name [search vendors]" c!"" (eqC · (.join ⟨c!"left", true, false, false, 1⟩ [c!"product_id", c!"host", c!"name"] [(.search (.const (.field c!"vendors")))])) = true := by decide +kernel

/- commands/cmd_join/spl.rs:219 -/
example : gives Spl.join Spl.fix c!"join product_id [search vendors | rename pid AS product_id]" c!"" (eqC · (.join ⟨c!"inner", false, true, true, 1⟩ [c!"product_id"] [(.search (.const (.field c!"vendors"))), (.rename [(c!"pid", c!"product_id")])])) = true := by decide +kernel

/- commands/cmd_join/spl.rs:259 -/
example : gives Spl.join Spl.fix c!"join process_guid, _time [\n            | tstats\n                summariesonly=false allow_old_summaries=true fillnull_value=null\n                count min(_time) as firstTime max(_time) as lastTime\n                FROM datamodel=Endpoint.Filesystem\n                where Filesystem.file_path IN (\"*\\\\HttpProxy\\\\owa\\\\auth\\\\*\", \"*\\\\inetpub\\\\wwwroot\\\\aspnet_client\\\\*\", \"*\\\\HttpProxy\\\\OAB\\\\*\") Filesystem.file_name=\"*.aspx\"\n                by _time span=1h Filesystem.dest Filesystem.file_create_time Filesystem.file_name Filesystem.file_path\n            | rename Filesystem.* AS *\n            | fields _time dest file_create_time file_name file_path process_name process_path process process_guid\n            ]" c!"" (eqC · (.join ⟨c!"inner", false, true, true, 1⟩ [c!"process_guid", c!"_time"] [(.tstats ⟨false, false, false, false, false, true, 10000000, (some c!"null")⟩ [(.call c!"count" []), (.alias (.call c!"min" [(.const (.field c!"_time"))]) c!"firstTime"), (.alias (.call c!"max" [(.const (.field c!"_time"))]) c!"lastTime")] (some c!"Endpoint.Filesystem") none (some (.binary (.fieldIn c!"Filesystem.file_path" [(.const (.wildcard c!"*\\\\HttpProxy\\\\owa\\\\auth\\\\*")), (.const (.wildcard c!"*\\\\inetpub\\\\wwwroot\\\\aspnet_client\\\\*")), (.const (.wildcard c!"*\\\\HttpProxy\\\\OAB\\\\*"))]) c!"AND" (.binary (.const (.field c!"Filesystem.file_name")) c!"=" (.const (.wildcard c!"*.aspx"))))) (some [⟨c!"_time", (some ⟨1, c!"hours"⟩)⟩, ⟨c!"Filesystem.dest", none⟩, ⟨c!"Filesystem.file_create_time", none⟩, ⟨c!"Filesystem.file_name", none⟩, ⟨c!"Filesystem.file_path", none⟩]) none), (.rename [(c!"Filesystem.*", c!"*")]), (.fields false [c!"_time", c!"dest", c!"file_create_time", c!"file_name", c!"file_path", c!"process_name", c!"process_path", c!"process", c!"process_guid"])])) = true := by decide +kernel

/- commands/cmd_lookup/spl.rs:142 -/
example : gives Spl.lookup Spl.fix c!"lookup process_create_whitelist a b output reason" c!"" (eqC · (.lookup ⟨c!"process_create_whitelist", [(.field c!"a"), (.field c!"b")], (some ⟨c!"output", [(.field c!"reason")]⟩)⟩)) = true := by decide +kernel

/- commands/cmd_lookup/spl.rs:146 -/
example : gives Spl.pipeline Spl.fix c!"lookup process_create_whitelist a b output reason" c!"" (eqP · [(.lookup ⟨c!"process_create_whitelist", [(.field c!"a"), (.field c!"b")], (some ⟨c!"output", [(.field c!"reason")]⟩)⟩)]) = true := by decide +kernel

/- commands/cmd_make_results/spl.rs:86 -/
example : gives Spl.command Spl.fix c!"makeresults" c!"" (eqC · (.makeResults ⟨1, false, c!"local", none⟩)) = true := by decide +kernel

/- commands/cmd_make_results/spl.rs:111 -/
example : gives Spl.command Spl.fix c!"makeresults count=10 annotate=t splunk_server_group=group0" c!"" (eqC · (.makeResults ⟨10, true, c!"local", (some c!"group0")⟩)) = true := by decide +kernel

/- commands/cmd_map/spl.rs:101 -/
example : gives Spl.command Spl.fix c!"map search=\"search index=dummy host=$host_var$\" maxsearches=20" c!"" (eqC · (.map [(.search (.binary (.binary (.const (.field c!"index")) c!"=" (.const (.field c!"dummy"))) c!"AND" (.binary (.const (.field c!"host")) c!"=" (.const (.variable c!"host_var")))))] 20)) = true := by decide +kernel

/- commands/cmd_map/spl.rs:162 -/
example : gives Lex.doubleQuotedAlt () c!"\"search index=\\\"dummy\\\"\"" c!"" (fun v => decide (v = c!"search index=\\\"dummy\\\"")) = true := by decide +kernel

/- commands/cmd_map/spl.rs:166 -/
example : gives Spl.quotedSearch Spl.fix c!"search=\"search index=\\\"dummy\\\"\"" c!"" (eqP · [(.search (.binary (.const (.field c!"index")) c!"=" (.const (.str c!"dummy"))))]) = true := by decide +kernel

/- commands/cmd_map/spl.rs:178 -/
example : gives Spl.map_ Spl.fix c!"map search=\"search index=\\\"dummy\\\"\"" c!"" (eqC · (.map [(.search (.binary (.const (.field c!"index")) c!"=" (.const (.str c!"dummy"))))] 10)) = true := by decide +kernel

/- commands/cmd_map/spl.rs:193 -/
example : gives Spl.map_ Spl.fix c!"map search=\"search index=dummy\"" c!"" (eqC · (.map [(.search (.binary (.const (.field c!"index")) c!"=" (.const (.field c!"dummy"))))] 10)) = true := by decide +kernel

/- commands/cmd_map/spl.rs:244 -/
example : gives Spl.pipeline Spl.fix c!"search index=dummy host=$host_var$ | eval this=\"that\" | dedup 10 keepevents=true keepempty=false consecutive=true host ip port" c!"" (eqP · [(.search (.binary (.binary (.const (.field c!"index")) c!"=" (.const (.field c!"dummy"))) c!"AND" (.binary (.const (.field c!"host")) c!"=" (.const (.variable c!"host_var"))))), (.eval [(c!"this", (.const (.str c!"that")))]), (.dedup 10 [c!"host", c!"ip", c!"port"] true false true [((some c!"+"), c!"_no")])]) = true := by decide +kernel

/- commands/cmd_map/spl.rs:250 -/
example : accepts Spl.quotedSearch Spl.fix c!"search=\"search index=dummy host=$host_var$ | eval this=\\\"that\\\" | dedup 10 keepevents=true keepempty=false consecutive=true host ip port\"" = true := by decide +kernel

/- commands/cmd_mv_combine/spl.rs:77 -/
example : gives Spl.mvCombine Spl.fix c!"mvcombine host" c!"" (eqC · (.mvCombine none c!"host")) = true := by decide +kernel

/- commands/cmd_mv_combine/spl.rs:98 -/
example : gives Spl.mvCombine Spl.fix c!"mvcombine delim=\",\" host" c!"" (eqC · (.mvCombine (some c!",") c!"host")) = true := by decide +kernel

/- commands/cmd_regex/spl.rs:76 -/
example : gives Spl.regex Spl.fix c!"regex _raw=\"(?<!\\d)10\\.\\d{1,3}\\.\\d{1,3}\\.\\d{1,3}(?!\\d)\"" c!"" (eqC · (.regex (some (c!"_raw", c!"=")) c!"(?<!\\d)10\\.\\d{1,3}\\.\\d{1,3}\\.\\d{1,3}(?!\\d)")) = true := by decide +kernel

/- commands/cmd_regex/spl.rs:96 -/
example : gives Spl.regex Spl.fix c!"regex _raw!=\"(?<!\\d)10\\.\\d{1,3}\\.\\d{1,3}\\.\\d{1,3}(?!\\d)\"" c!"" (eqC · (.regex (some (c!"_raw", c!"!=")) c!"(?<!\\d)10\\.\\d{1,3}\\.\\d{1,3}\\.\\d{1,3}(?!\\d)")) = true := by decide +kernel

/- commands/cmd_regex/spl.rs:116 -/
example : gives Spl.regex Spl.fix c!"regex \"(?<!\\d)10\\.\\d{1,3}\\.\\d{1,3}\\.\\d{1,3}(?!\\d)\"" c!"" (eqC · (.regex none c!"(?<!\\d)10\\.\\d{1,3}\\.\\d{1,3}\\.\\d{1,3}(?!\\d)")) = true := by decide +kernel

/- commands/cmd_rename/spl.rs:68 -/
example : gives Spl.rename Spl.fix c!"rename _ip AS IPAddress" c!"" (eqC · (.rename [(c!"_ip", c!"IPAddress")])) = true := by decide +kernel

/- commands/cmd_rename/spl.rs:99 -/
example : gives Spl.rename Spl.fix c!"rename _ip AS IPAddress, _host AS host, _port AS port" c!"" (eqC · (.rename [(c!"_ip", c!"IPAddress"), (c!"_host", c!"host"), (c!"_port", c!"port")])) = true := by decide +kernel

/- commands/cmd_rename/spl.rs:127 -/
example : gives Spl.rename Spl.fix c!"rename foo* AS bar*" c!"" (eqC · (.rename [(c!"foo*", c!"bar*")])) = true := by decide +kernel

/- commands/cmd_rename/spl.rs:150 -/
example : gives Spl.rename Spl.fix c!"rename count AS \"Count of Events\"" c!"" (eqC · (.rename [(c!"count", c!"Count of Events")])) = true := by decide +kernel

/- commands/cmd_rename/spl.rs:163 -/
example : gives Spl.rename Spl.fix c!"rename \"Web\".* AS *" c!"" (eqC · (.rename [(c!"\"Web\".*", c!"*")])) = true := by decide +kernel

/- commands/cmd_return/spl.rs:94 -/
example : gives Spl.return_ Spl.fix c!"return 10 $test $env" c!"" (eqC · (.return_ 10 [(.field c!"test"), (.field c!"env")])) = true := by decide +kernel

/- commands/cmd_return/spl.rs:123 -/
example : gives Spl.return_ Spl.fix c!"return 10 ip src host port" c!"" (eqC · (.return_ 10 [(.field c!"ip"), (.field c!"src"), (.field c!"host"), (.field c!"port")])) = true := by decide +kernel

/- commands/cmd_return/spl.rs:152 -/
example : gives Spl.return_ Spl.fix c!"return 10 ip=src host=port" c!"" (eqC · (.return_ 10 [(.alias c!"src" c!"ip"), (.alias c!"port" c!"host")])) = true := by decide +kernel

/- commands/cmd_rex/spl.rs:114 -/
example : gives Lex.doubleQuoted () c!"\"\\d\"" c!"" (fun v => decide (v = c!"\\d")) = true := by decide +kernel

/- commands/cmd_rex/spl.rs:115 -/
example : gives Lex.doubleQuoted () c!"\"(?<user>\\w+);(?<app>\\w+);(?<SavedSearchName>\\w+)\"" c!"" (fun v => decide (v = c!"(?<user>\\w+);(?<app>\\w+);(?<SavedSearchName>\\w+)")) = true := by decide +kernel

/- commands/cmd_rex/spl.rs:119 -/
example : gives Spl.pipeline Spl.fix c!"rex field=savedsearch_id max_match=10 \"(?<user>\\w+);(?<app>\\w+);(?<SavedSearchName>\\w+)\"" c!"" (eqP · [(.rex ⟨c!"savedsearch_id", 10, none, none, c!"(?<user>\\w+);(?<app>\\w+);(?<SavedSearchName>\\w+)"⟩)]) = true := by decide +kernel

/- commands/cmd_rex/spl.rs:153 -/
example : gives Spl.pipeline Spl.fix c!"rex mode=sed \"s/(\\d{4}-){3}/XXXX-XXXX-XXXX-/g\"" c!"" (eqP · [(.rex ⟨c!"_raw", 1, none, (some c!"sed"), c!"s/(\\d{4}-){3}/XXXX-XXXX-XXXX-/g"⟩)]) = true := by decide +kernel

/- commands/cmd_s_path/spl.rs:89 -/
example : gives Spl.spath Spl.fix c!"spath output=myfield path=vendorProductSet.product.desc" c!"" (eqC · (.spath c!"vendorProductSet.product.desc" c!"_raw" (some c!"myfield"))) = true := by decide +kernel

/- commands/cmd_s_path/spl.rs:115 -/
example : gives Spl.spath Spl.fix c!"spath input=x output=y key.subkey" c!"" (eqC · (.spath c!"key.subkey" c!"x" (some c!"y"))) = true := by decide +kernel

/- commands/cmd_search/spl.rs:88 -/
example : gives Spl.search Spl.fix c!"search index=dummy host=$host_var$" c!"" (eqC · (.search (.binary (.binary (.const (.field c!"index")) c!"=" (.const (.field c!"dummy"))) c!"AND" (.binary (.const (.field c!"host")) c!"=" (.const (.variable c!"host_var")))))) = true := by decide +kernel

/- commands/cmd_search/spl.rs:135 -/
example : gives Spl.search Spl.fix c!"a=b b=c (c=f OR d=t)" c!"" (eqC · (.search (.binary (.binary (.binary (.const (.field c!"a")) c!"=" (.const (.field c!"b"))) c!"AND" (.binary (.const (.field c!"b")) c!"=" (.const (.field c!"c")))) c!"AND" (.binary (.binary (.const (.field c!"c")) c!"=" (.const (.bool false))) c!"OR" (.binary (.const (.field c!"d")) c!"=" (.const (.bool true))))))) = true := by decide +kernel

/- commands/cmd_search/spl.rs:164 -/
example : gives Spl.search Spl.fix c!"code IN(4*, 5*)" c!"" (eqC · (.search (.fieldIn c!"code" [(.const (.wildcard c!"4*")), (.const (.wildcard c!"5*"))]))) = true := by decide +kernel

/- commands/cmd_search/spl.rs:192 -/
example : gives Lex.fieldIn () c!"var_5 IN (str_2, str_3)" c!"" (fun v => decide (v = (c!"var_5", [(.field c!"str_2"), (.field c!"str_3")]))) = true := by decide +kernel

/- commands/cmd_search/spl.rs:205 -/
example : gives Spl.search Spl.fix c!"var_5 IN (str_2, str_3)" c!"" (eqC · (.search (.fieldIn c!"var_5" [(.const (.field c!"str_2")), (.const (.field c!"str_3"))]))) = true := by decide +kernel

/- commands/cmd_search/spl.rs:234 -/
example : gives Spl.search Spl.fix c!"NOT code IN(4*, 5*)" c!"" (eqC · (.search (.unary c!"NOT" (.fieldIn c!"code" [(.const (.wildcard c!"4*")), (.const (.wildcard c!"5*"))])))) = true := by decide +kernel

/- commands/cmd_search/spl.rs:278 -/
example : gives Spl.search Spl.fix c!"code IN(10, 29, 43) host!=\"localhost\" xqp>5" c!"" (eqC · (.search (.binary (.binary (.fieldIn c!"code" [(.const (.int 10)), (.const (.int 29)), (.const (.int 43))]) c!"AND" (.binary (.const (.field c!"host")) c!"!=" (.const (.str c!"localhost")))) c!"AND" (.binary (.const (.field c!"xqp")) c!">" (.const (.int 5)))))) = true := by decide +kernel

/- commands/cmd_search/spl.rs:309 -/
example : gives Spl.search Spl.fix c!"sourcetype=XmlWinEventLog:Microsoft-Windows-Sysmon/Operational OR source=XmlWinEventLog:Microsoft-Windows-Sysmon/Operational OR source=Syslog:Linux-Sysmon/Operational EventCode=6 Signature=\"Noriyuki MIYAZAKI\" OR ImageLoaded= \"*\\\\WinRing0x64.sys\"" c!"" (eqC · (.search (.binary (.binary (.binary (.binary (.const (.field c!"sourcetype")) c!"=" (.const (.field c!"XmlWinEventLog:Microsoft-Windows-Sysmon/Operational"))) c!"OR" (.binary (.binary (.const (.field c!"source")) c!"=" (.const (.field c!"XmlWinEventLog:Microsoft-Windows-Sysmon/Operational"))) c!"OR" (.binary (.const (.field c!"source")) c!"=" (.const (.field c!"Syslog:Linux-Sysmon/Operational"))))) c!"AND" (.binary (.const (.field c!"EventCode")) c!"=" (.const (.int 6)))) c!"AND" (.binary (.binary (.const (.field c!"Signature")) c!"=" (.const (.str c!"Noriyuki MIYAZAKI"))) c!"OR" (.binary (.const (.field c!"ImageLoaded")) c!"=" (.const (.wildcard c!"*\\\\WinRing0x64.sys"))))))) = true := by decide +kernel

/- commands/cmd_search/spl.rs:361 -/
example : gives Spl.search Spl.fix c!"search\n        query!=\"SELECT * FROM Win32_ProcessStartTrace WHERE ProcessName = 'wsmprovhost.exe'\"\n        AND query!=\"SELECT * FROM __InstanceOperationEvent WHERE TargetInstance ISA 'AntiVirusProduct' OR TargetInstance ISA 'FirewallProduct' OR TargetInstance ISA 'AntiSpywareProduct'\"" c!"" (eqC · (.search (.binary (.binary (.const (.field c!"query")) c!"!=" (.const (.wildcard c!"SELECT * FROM Win32_ProcessStartTrace WHERE ProcessName = 'wsmprovhost.exe'"))) c!"AND" (.binary (.const (.field c!"query")) c!"!=" (.const (.wildcard c!"SELECT * FROM __InstanceOperationEvent WHERE TargetInstance ISA 'AntiVirusProduct' OR TargetInstance ISA 'FirewallProduct' OR TargetInstance ISA 'AntiSpywareProduct'")))))) = true := by decide +kernel

/- commands/cmd_search/spl.rs:388 -/
example : gives Spl.search Spl.fix c!"\n            sourcetype=XmlWinEventLog:Microsoft-Windows-Sysmon/Operational\n            OR source=XmlWinEventLog:Microsoft-Windows-Sysmon/Operational\n            OR source=Syslog:Linux-Sysmon/Operational (process_name=3CXDesktopApp.exe OR OriginalFileName=3CXDesktopApp.exe)  FileVersion=18.12.*" c!"" (eqC · (.search (.binary (.binary (.binary (.binary (.const (.field c!"sourcetype")) c!"=" (.const (.field c!"XmlWinEventLog:Microsoft-Windows-Sysmon/Operational"))) c!"OR" (.binary (.binary (.const (.field c!"source")) c!"=" (.const (.field c!"XmlWinEventLog:Microsoft-Windows-Sysmon/Operational"))) c!"OR" (.binary (.const (.field c!"source")) c!"=" (.const (.field c!"Syslog:Linux-Sysmon/Operational"))))) c!"AND" (.binary (.binary (.const (.field c!"process_name")) c!"=" (.const (.field c!"3CXDesktopApp.exe"))) c!"OR" (.binary (.const (.field c!"OriginalFileName")) c!"=" (.const (.field c!"3CXDesktopApp.exe"))))) c!"AND" (.binary (.const (.field c!"FileVersion")) c!"=" (.const (.wildcard c!"18.12.*")))))) = true := by decide +kernel

/- commands/cmd_search/spl.rs:450 -/
example : gives Spl.search Spl.fix c!"\n        eventtype=wineventlog_security OR Channel=security OR source=XmlWinEventLog:Security\n        EventCode=5137 OR (\n            EventCode=5136\n            AttributeValue!=\"New Group Policy Object\" AND\n            (\n                AttributeLDAPDisplayName=displayName OR\n                AttributeLDAPDisplayName=gPCFileSysPath\n            )\n        )\n        ObjectClass=groupPolicyContainer" c!"" (eqC · (.search (.binary (.binary (.binary (.binary (.const (.field c!"eventtype")) c!"=" (.const (.field c!"wineventlog_security"))) c!"OR" (.binary (.binary (.const (.field c!"Channel")) c!"=" (.const (.field c!"security"))) c!"OR" (.binary (.const (.field c!"source")) c!"=" (.const (.field c!"XmlWinEventLog:Security"))))) c!"AND" (.binary (.binary (.const (.field c!"EventCode")) c!"=" (.const (.int 5137))) c!"OR" (.binary (.binary (.const (.field c!"EventCode")) c!"=" (.const (.int 5136))) c!"AND" (.binary (.binary (.const (.field c!"AttributeValue")) c!"!=" (.const (.str c!"New Group Policy Object"))) c!"AND" (.binary (.binary (.const (.field c!"AttributeLDAPDisplayName")) c!"=" (.const (.field c!"displayName"))) c!"OR" (.binary (.const (.field c!"AttributeLDAPDisplayName")) c!"=" (.const (.field c!"gPCFileSysPath")))))))) c!"AND" (.binary (.const (.field c!"ObjectClass")) c!"=" (.const (.field c!"groupPolicyContainer")))))) = true := by decide +kernel

/- commands/cmd_search/spl.rs:506 -/
example : gives Spl.search Spl.fix c!"eventtype=wineventlog_security OR Channel=security OR source=XmlWinEventLog:Security EventCode=5136 AttributeLDAPDisplayName IN (\"msDS-AllowedToDelegateTo\",\"msDS-AllowedToActOnBehalfOfOtherIdentity\",\"scriptPath\",\"msTSInitialProgram\") OperationType=%%14674" c!"" (fun _ => true) = true := by decide +kernel

/- commands/cmd_search/spl.rs:512 -/
example : gives Spl.search Spl.fix c!"sourcetype=XmlWinEventLog:Microsoft-Windows-Sysmon/Operational OR source=XmlWinEventLog:Microsoft-Windows-Sysmon/Operational OR source=Syslog:Linux-Sysmon/Operational EventCode=22 QueryName IN (\"*pastebin*\",\"\"*textbin*\"\", \"*ngrok.io*\", \"*discord*\", \"*duckdns.org*\", \"*pasteio.com*\")" c!"" (fun _ => true) = true := by decide +kernel

/- commands/cmd_search/spl.rs:517 -/
example : gives Spl.search Spl.fix c!"search [| inputlookup x]" c!"" (fun _ => true) = true := by decide +kernel

/- commands/cmd_search/spl.rs:525 -/
example : gives Spl.search Spl.fix c!"search [| tstats summariesonly=false allow_old_summaries=true fillnull_value=null count FROM datamodel=Endpoint.Processes where Processes.parent_process_name=cmd.exe Processes.process_name= reg.exe by Processes.parent_process_id Processes.dest Processes.process_name | rename \"Processes\".* AS * | convert timeformat=\"%Y-%m-%dT%H:%M:%S\" ctime(firstTime) | convert timeformat=\"%Y-%m-%dT%H:%M:%S\" ctime(lastTime) | rename parent_process_id as process_id | dedup process_id | table process_id dest]" c!"" (fun _ => true) = true := by decide +kernel

/- commands/cmd_search/spl.rs:531 -/
example : gives Spl.search Spl.fix c!"sourcetype=XmlWinEventLog:Microsoft-Windows-Sysmon/Operational OR source=XmlWinEventLog:Microsoft-Windows-Sysmon/Operational OR source=Syslog:Linux-Sysmon/Operational EventCode = 8 parent_process_name IN (\"powershell_ise.exe\", \"powershell.exe\") TargetImage IN (\"*\\\\svchost.exe\",\"*\\\\csrss.exe\" \"*\\\\gpupdate.exe\", \"*\\\\explorer.exe\",\"*\\\\services.exe\",\"*\\\\winlogon.exe\",\"*\\\\smss.exe\",\"*\\\\wininit.exe\",\"*\\\\userinit.exe\",\"*\\\\spoolsv.exe\",\"*\\\\taskhost.exe\")" c!"" (fun _ => true) = true := by decide +kernel

/- commands/cmd_search/spl.rs:536 -/
example : gives Lex.fieldIn () c!"email IN(\"\", \"null\")" c!"" (fun _ => true) = true := by decide +kernel

/- commands/cmd_search/spl.rs:537 -/
example : gives Spl.expr Spl.fix c!"(email IN(\"\", \"null\"))" c!"" (fun _ => true) = true := by decide +kernel

/- commands/cmd_search/spl.rs:538 -/
example : gives Spl.expr Spl.fix c!"NOT (email IN(\"\", \"null\"))" c!"" (fun _ => true) = true := by decide +kernel

/- commands/cmd_search/spl.rs:539 -/
example : gives Spl.search Spl.fix c!"sourcetype=gsuite:drive:json NOT (email IN(\"\", \"null\"))" c!"" (fun _ => true) = true := by decide +kernel

/- commands/cmd_search/spl.rs:550 -/
example : gives Spl.search Spl.fix c!"search http_method, \"POST\"" c!"" (eqC · (.search (.binary (.const (.field c!"http_method")) c!"AND" (.const (.str c!"POST"))))) = true := by decide +kernel

/- commands/cmd_stats/spl.rs:129 -/
example : gives Spl.pipeline Spl.fix c!"stats first(startTime) AS startTime, last(histID) AS lastPassHistId BY testCaseId" c!"" (eqP · [(.stats ⟨1, false, c!" "⟩ [(.alias (.call c!"first" [(.const (.field c!"startTime"))]) c!"startTime"), (.alias (.call c!"last" [(.const (.field c!"histID"))]) c!"lastPassHistId")] (some [⟨c!"testCaseId", none⟩]) false)]) = true := by decide +kernel

/- commands/cmd_stats/spl.rs:178 -/
example : gives Spl.pipeline Spl.fix c!"stats count(eval(status=404))" c!"" (eqP · [(.stats ⟨1, false, c!" "⟩ [(.call c!"count" [(.call c!"eval" [(.binary (.const (.field c!"status")) c!"=" (.const (.int 404)))])])] none false)]) = true := by decide +kernel

/- commands/cmd_stats/spl.rs:226 -/
example : gives Spl.pipeline Spl.fix c!"stats allnum=f delim=\":\" partitions=10 count earliest(_time) as earliest latest(_time) as latest values(var_2) as var_2 by var_1" c!"" (eqP · [(.stats ⟨10, false, c!":"⟩ [(.call c!"count" []), (.alias (.call c!"earliest" [(.const (.field c!"_time"))]) c!"earliest"), (.alias (.call c!"latest" [(.const (.field c!"_time"))]) c!"latest"), (.alias (.call c!"values" [(.const (.field c!"var_2"))]) c!"var_2")] (some [⟨c!"var_1", none⟩]) false)]) = true := by decide +kernel

/- commands/cmd_stats/spl.rs:258 -/
example : gives Spl.stats Spl.fix c!"stats\n        count min(_time) as firstTime max(_time) as lastTime\n        by action deviceowner user urlcategory url src dest" c!"" (eqC · (.stats ⟨1, false, c!" "⟩ [(.call c!"count" []), (.alias (.call c!"min" [(.const (.field c!"_time"))]) c!"firstTime"), (.alias (.call c!"max" [(.const (.field c!"_time"))]) c!"lastTime")] (some [⟨c!"action", none⟩, ⟨c!"deviceowner", none⟩, ⟨c!"user", none⟩, ⟨c!"urlcategory", none⟩, ⟨c!"url", none⟩, ⟨c!"src", none⟩, ⟨c!"dest", none⟩]) false)) = true := by decide +kernel

/- commands/cmd_stats/spl.rs:289 -/
example : gives Spl.stats Spl.fix c!"stats count AS instances_launched by _time userName" c!"" (eqC · (.stats ⟨1, false, c!" "⟩ [(.alias (.call c!"count" []) c!"instances_launched")] (some [⟨c!"_time", none⟩, ⟨c!"userName", none⟩]) false)) = true := by decide +kernel

/- commands/cmd_t_stats/spl.rs:286 -/
example : gives Spl.tstats Spl.fix c!"tstats summariesonly=false allow_old_summaries=true fillnull_value=null\n                count min(_time) as firstTime max(_time) as lastTime\n                from datamodel=Endpoint.Processes\n                where (Processes.process_name=wmic.exe OR Processes.original_file_name=wmic.exe) Processes.process = \"*os get*\" Processes.process=\"*/format:*\" Processes.process = \"*.xsl*\"\n                by Processes.parent_process_name Processes.parent_process Processes.process_name Processes.process_id Processes.process Processes.dest Processes.user" c!"" (eqC · (.tstats ⟨false, false, false, false, false, true, 10000000, (some c!"null")⟩ [(.call c!"count" []), (.alias (.call c!"min" [(.const (.field c!"_time"))]) c!"firstTime"), (.alias (.call c!"max" [(.const (.field c!"_time"))]) c!"lastTime")] (some c!"Endpoint.Processes") none (some (.binary (.binary (.binary (.binary (.binary (.const (.field c!"Processes.process_name")) c!"=" (.const (.str c!"wmic.exe"))) c!"OR" (.binary (.const (.field c!"Processes.original_file_name")) c!"=" (.const (.str c!"wmic.exe")))) c!"AND" (.binary (.const (.field c!"Processes.process")) c!"=" (.const (.wildcard c!"*os get*")))) c!"AND" (.binary (.const (.field c!"Processes.process")) c!"=" (.const (.wildcard c!"*/format:*")))) c!"AND" (.binary (.const (.field c!"Processes.process")) c!"=" (.const (.wildcard c!"*.xsl*"))))) (some [⟨c!"Processes.parent_process_name", none⟩, ⟨c!"Processes.parent_process", none⟩, ⟨c!"Processes.process_name", none⟩, ⟨c!"Processes.process_id", none⟩, ⟨c!"Processes.process", none⟩, ⟨c!"Processes.dest", none⟩, ⟨c!"Processes.user", none⟩]) none)) = true := by decide +kernel

/- commands/cmd_t_stats/spl.rs:356 -/
example : gives Spl.tstats Spl.fix c!"tstats\n            count min(_time) as firstTime max(_time) as lastTime\n            from datamodel=Web\n            where Web.url IN (\"/AHT/AhtApiService.asmx/AuthUser\") Web.status=200 Web.http_method=POST\n            by Web.http_user_agent, Web.status Web.http_method, Web.url, Web.url_length, Web.src, Web.dest, sourcetype" c!"" (eqC · (.tstats ⟨false, false, false, false, false, false, 10000000, none⟩ [(.call c!"count" []), (.alias (.call c!"min" [(.const (.field c!"_time"))]) c!"firstTime"), (.alias (.call c!"max" [(.const (.field c!"_time"))]) c!"lastTime")] (some c!"Web") none (some (.binary (.binary (.fieldIn c!"Web.url" [(.const (.str c!"/AHT/AhtApiService.asmx/AuthUser"))]) c!"AND" (.binary (.const (.field c!"Web.status")) c!"=" (.const (.int 200)))) c!"AND" (.binary (.const (.field c!"Web.http_method")) c!"=" (.const (.str c!"POST"))))) (some [⟨c!"Web.http_user_agent", none⟩, ⟨c!"Web.status", none⟩, ⟨c!"Web.http_method", none⟩, ⟨c!"Web.url", none⟩, ⟨c!"Web.url_length", none⟩, ⟨c!"Web.src", none⟩, ⟨c!"Web.dest", none⟩, ⟨c!"sourcetype", none⟩]) none)) = true := by decide +kernel

/- commands/cmd_t_stats/spl.rs:416 -/
example : gives Spl.tstats Spl.fix c!"tstats\n        summariesonly=false allow_old_summaries=true fillnull_value=null\n        count min(_time) AS firstTime max(_time) AS lastTime\n        FROM datamodel=Endpoint.Processes\n        BY _time span=1h Processes.user Processes.process_id Processes.process_name Processes.process Processes.process_path Processes.dest Processes.parent_process_name Processes.parent_process Processes.process_guid" c!"" (eqC · (.tstats ⟨false, false, false, false, false, true, 10000000, (some c!"null")⟩ [(.call c!"count" []), (.alias (.call c!"min" [(.const (.field c!"_time"))]) c!"firstTime"), (.alias (.call c!"max" [(.const (.field c!"_time"))]) c!"lastTime")] (some c!"Endpoint.Processes") none none (some [⟨c!"_time", (some ⟨1, c!"hours"⟩)⟩, ⟨c!"Processes.user", none⟩, ⟨c!"Processes.process_id", none⟩, ⟨c!"Processes.process_name", none⟩, ⟨c!"Processes.process", none⟩, ⟨c!"Processes.process_path", none⟩, ⟨c!"Processes.dest", none⟩, ⟨c!"Processes.parent_process_name", none⟩, ⟨c!"Processes.parent_process", none⟩, ⟨c!"Processes.process_guid", none⟩]) none)) = true := by decide +kernel

/- commands/cmd_t_stats/spl.rs:470 -/
example : gives Spl.tstats Spl.fix c!"tstats\n        summariesonly=false allow_old_summaries=true fillnull_value=null\n        count min(_time) as firstTime max(_time) as lastTime\n        from datamodel=Endpoint.Processes\n        where (Processes.process_name =\"7z.exe\" OR Processes.process_name = \"7za.exe\" OR Processes.original_file_name = \"7z.exe\" OR Processes.original_file_name =  \"7za.exe\") AND (Processes.process=\"*\\\\C$\\\\*\" OR Processes.process=\"*\\\\Admin$\\\\*\" OR Processes.process=\"*\\\\IPC$\\\\*\")\n        by Processes.original_file_name Processes.parent_process_name Processes.parent_process Processes.process_name Processes.process Processes.parent_process_id Processes.process_id  Processes.dest Processes.user" c!"" (eqC · (.tstats ⟨false, false, false, false, false, true, 10000000, (some c!"null")⟩ [(.call c!"count" []), (.alias (.call c!"min" [(.const (.field c!"_time"))]) c!"firstTime"), (.alias (.call c!"max" [(.const (.field c!"_time"))]) c!"lastTime")] (some c!"Endpoint.Processes") none (some (.binary (.binary (.binary (.binary (.binary (.const (.field c!"Processes.process_name")) c!"=" (.const (.str c!"7z.exe"))) c!"OR" (.binary (.const (.field c!"Processes.process_name")) c!"=" (.const (.str c!"7za.exe")))) c!"OR" (.binary (.const (.field c!"Processes.original_file_name")) c!"=" (.const (.str c!"7z.exe")))) c!"OR" (.binary (.const (.field c!"Processes.original_file_name")) c!"=" (.const (.str c!"7za.exe")))) c!"AND" (.binary (.binary (.binary (.const (.field c!"Processes.process")) c!"=" (.const (.wildcard c!"*\\\\C$\\\\*"))) c!"OR" (.binary (.const (.field c!"Processes.process")) c!"=" (.const (.wildcard c!"*\\\\Admin$\\\\*")))) c!"OR" (.binary (.const (.field c!"Processes.process")) c!"=" (.const (.wildcard c!"*\\\\IPC$\\\\*")))))) (some [⟨c!"Processes.original_file_name", none⟩, ⟨c!"Processes.parent_process_name", none⟩, ⟨c!"Processes.parent_process", none⟩, ⟨c!"Processes.process_name", none⟩, ⟨c!"Processes.process", none⟩, ⟨c!"Processes.parent_process_id", none⟩, ⟨c!"Processes.process_id", none⟩, ⟨c!"Processes.dest", none⟩, ⟨c!"Processes.user", none⟩]) none)) = true := by decide +kernel

/- commands/cmd_t_stats/spl.rs:556 -/
example : gives Spl.tstats Spl.fix c!"tstats\n        summariesonly=false allow_old_summaries=true fillnull_value=null\n        count\n        FROM datamodel=Endpoint.Registry\n        WHERE Registry.registry_path= \"*\\\\AppX82a6gwre4fdg3bt635tn5ctqjf8msdd2\\\\Shell\\\\open\\\\command*\" AND (Registry.registry_value_name = \"(Default)\" OR Registry.registry_value_name = \"DelegateExecute\")\n        by _time span=1h Registry.dest Registry.user Registry.registry_path Registry.registry_key_name Registry.registry_value_name Registry.registry_value_data Registry.process_guid" c!"" (eqC · (.tstats ⟨false, false, false, false, false, true, 10000000, (some c!"null")⟩ [(.call c!"count" [])] (some c!"Endpoint.Registry") none (some (.binary (.binary (.const (.field c!"Registry.registry_path")) c!"=" (.const (.wildcard c!"*\\\\AppX82a6gwre4fdg3bt635tn5ctqjf8msdd2\\\\Shell\\\\open\\\\command*"))) c!"AND" (.binary (.binary (.const (.field c!"Registry.registry_value_name")) c!"=" (.const (.str c!"(Default)"))) c!"OR" (.binary (.const (.field c!"Registry.registry_value_name")) c!"=" (.const (.str c!"DelegateExecute")))))) (some [⟨c!"_time", (some ⟨1, c!"hours"⟩)⟩, ⟨c!"Registry.dest", none⟩, ⟨c!"Registry.user", none⟩, ⟨c!"Registry.registry_path", none⟩, ⟨c!"Registry.registry_key_name", none⟩, ⟨c!"Registry.registry_value_name", none⟩, ⟨c!"Registry.registry_value_data", none⟩, ⟨c!"Registry.process_guid", none⟩]) none)) = true := by decide +kernel

/- commands/cmd_t_stats/spl.rs:621 -/
example : gives Spl.tstats Spl.fix c!"tstats\n        summariesonly=false allow_old_summaries=true fillnull_value=null\n        count\n        FROM datamodel=Network_Traffic.All_Traffic\n        where All_Traffic.dest_port != 0 NOT (All_Traffic.dest IN (127.0.0.1,10.0.0.0/8,172.16.0.0/12, 192.168.0.0/16, 0:0:0:0:0:0:0:1))\n        by All_Traffic.process_id All_Traffic.dest All_Traffic.dest_port" c!"" (eqC · (.tstats ⟨false, false, false, false, false, true, 10000000, (some c!"null")⟩ [(.call c!"count" [])] (some c!"Network_Traffic.All_Traffic") none (some (.binary (.binary (.const (.field c!"All_Traffic.dest_port")) c!"!=" (.const (.int 0))) c!"AND" (.unary c!"NOT" (.fieldIn c!"All_Traffic.dest" [(.const (.str c!"127.0.0.1")), (.const (.ipv4cidr c!"10.0.0.0/8")), (.const (.ipv4cidr c!"172.16.0.0/12")), (.const (.ipv4cidr c!"192.168.0.0/16")), (.const (.str c!"0:0:0:0:0:0:0:1"))])))) (some [⟨c!"All_Traffic.process_id", none⟩, ⟨c!"All_Traffic.dest", none⟩, ⟨c!"All_Traffic.dest_port", none⟩]) none)) = true := by decide +kernel

/- commands/cmd_t_stats/spl.rs:673 -/
example : gives Spl.tstats Spl.fix c!"tstats\n        summariesonly=false allow_old_summaries=true fillnull_value=null\n        dc(Updates.dest) as count\n        FROM datamodel=Updates\n        where Updates.vendor_product=\"Microsoft Windows\" AND Updates.status=failure\n        by _time span=1d" c!"" (eqC · (.tstats ⟨false, false, false, false, false, true, 10000000, (some c!"null")⟩ [(.alias (.call c!"dc" [(.const (.field c!"Updates.dest"))]) c!"count")] (some c!"Updates") none (some (.binary (.binary (.const (.field c!"Updates.vendor_product")) c!"=" (.const (.str c!"Microsoft Windows"))) c!"AND" (.binary (.const (.field c!"Updates.status")) c!"=" (.const (.str c!"failure"))))) (some [⟨c!"_time", (some ⟨1, c!"days"⟩)⟩]) none)) = true := by decide +kernel

/- commands/cmd_t_stats/spl.rs:722 -/
example : gives Spl.tstats Spl.fix c!"tstats\n        summariesonly=false allow_old_summaries=true fillnull_value=null\n        count min(_time) as firstTime max(_time) as lastTime\n        from datamodel=Endpoint.Filesystem\n        where NOT(Filesystem.file_path IN (\"*\\\\Program Files*\")) Filesystem.file_name = *.url\n        by Filesystem.file_create_time Filesystem.process_id  Filesystem.file_name Filesystem.user Filesystem.file_path Filesystem.process_guid Filesystem.dest\n        " c!"" (eqC · (.tstats ⟨false, false, false, false, false, true, 10000000, (some c!"null")⟩ [(.call c!"count" []), (.alias (.call c!"min" [(.const (.field c!"_time"))]) c!"firstTime"), (.alias (.call c!"max" [(.const (.field c!"_time"))]) c!"lastTime")] (some c!"Endpoint.Filesystem") none (some (.binary (.unary c!"NOT" (.fieldIn c!"Filesystem.file_path" [(.const (.wildcard c!"*\\\\Program Files*"))])) c!"AND" (.binary (.const (.field c!"Filesystem.file_name")) c!"=" (.const (.wildcard c!"*.url"))))) (some [⟨c!"Filesystem.file_create_time", none⟩, ⟨c!"Filesystem.process_id", none⟩, ⟨c!"Filesystem.file_name", none⟩, ⟨c!"Filesystem.user", none⟩, ⟨c!"Filesystem.file_path", none⟩, ⟨c!"Filesystem.process_guid", none⟩, ⟨c!"Filesystem.dest", none⟩]) none)) = true := by decide +kernel

/- commands/cmd_t_stats/spl.rs:781 -/
example : gives Spl.lterm Spl.fix c!"Processes.process=*urlcache* Processes.process=*split*" c!" Processes.process=*split*" (fun _ => true) = true := by decide +kernel

/- commands/cmd_t_stats/spl.rs:787 -/
example : gives Spl.lterm Spl.fix c!"Processes.process=*split*" c!"" (fun _ => true) = true := by decide +kernel

/- commands/cmd_t_stats/spl.rs:793 -/
example : gives Spl.lexpr Spl.fix c!"Processes.process=*urlcache* AND Processes.process=*split*" c!"" (fun _ => true) = true := by decide +kernel

/- commands/cmd_t_stats/spl.rs:799 -/
example : gives Spl.lterm Spl.fix c!"(Processes.process=*urlcache* AND Processes.process=*split*)" c!"" (fun _ => true) = true := by decide +kernel

/- commands/cmd_t_stats/spl.rs:807 -/
example : gives Spl.lterm Spl.fix c!"(Processes.process=*urlcache* Processes.process=*split*)" c!"" (fun _ => true) = true := by decide +kernel

/- commands/cmd_t_stats/spl.rs:814 -/
example : gives Spl.tstats Spl.fix c!"tstats\n        summariesonly=false allow_old_summaries=true fillnull_value=null\n        count min(_time) as firstTime max(_time) as lastTime\n        from datamodel=Endpoint.Processes\n        where\n            Processes.parent_process_name IN (\"sqlservr.exe\", \"sqlagent.exe\", \"sqlps.exe\", \"launchpad.exe\", \"sqldumper.exe\")\n            (Processes.process_name=certutil.exe OR Processes.original_file_name=CertUtil.exe)\n            (Processes.process=*urlcache* Processes.process=*split*)\n            OR Processes.process=*urlcache*\n        by Processes.dest Processes.user Processes.parent_process Processes.parent_process_name Processes.process_name Processes.process Processes.process_id Processes.original_file_name Processes.parent_process_id\n        " c!"" (eqC · (.tstats ⟨false, false, false, false, false, true, 10000000, (some c!"null")⟩ [(.call c!"count" []), (.alias (.call c!"min" [(.const (.field c!"_time"))]) c!"firstTime"), (.alias (.call c!"max" [(.const (.field c!"_time"))]) c!"lastTime")] (some c!"Endpoint.Processes") none (some (.binary (.binary (.binary (.fieldIn c!"Processes.parent_process_name" [(.const (.str c!"sqlservr.exe")), (.const (.str c!"sqlagent.exe")), (.const (.str c!"sqlps.exe")), (.const (.str c!"launchpad.exe")), (.const (.str c!"sqldumper.exe"))]) c!"AND" (.binary (.binary (.const (.field c!"Processes.process_name")) c!"=" (.const (.str c!"certutil.exe"))) c!"OR" (.binary (.const (.field c!"Processes.original_file_name")) c!"=" (.const (.str c!"CertUtil.exe"))))) c!"AND" (.binary (.binary (.const (.field c!"Processes.process")) c!"=" (.const (.wildcard c!"*urlcache*"))) c!"AND" (.binary (.const (.field c!"Processes.process")) c!"=" (.const (.wildcard c!"*split*"))))) c!"OR" (.binary (.const (.field c!"Processes.process")) c!"=" (.const (.wildcard c!"*urlcache*"))))) (some [⟨c!"Processes.dest", none⟩, ⟨c!"Processes.user", none⟩, ⟨c!"Processes.parent_process", none⟩, ⟨c!"Processes.parent_process_name", none⟩, ⟨c!"Processes.process_name", none⟩, ⟨c!"Processes.process", none⟩, ⟨c!"Processes.process_id", none⟩, ⟨c!"Processes.original_file_name", none⟩, ⟨c!"Processes.parent_process_id", none⟩]) none)) = true := by decide +kernel

/- commands/cmd_t_stats/spl.rs:900 -/
example : gives Spl.tstats Spl.fix c!"tstats\n        summariesonly=false allow_old_summaries=true fillnull_value=null\n        count min(_time) as firstTime max(_time) as lastTime\n        from datamodel=Endpoint.Processes\n        where (Processes.process_name=sc.exe OR Processes.original_file_name=sc.exe) (Processes.process=*\\\\\\\\* AND Processes.process=*start*)\n        by Processes.dest Processes.user Processes.parent_process_name Processes.process_name Processes.process Processes.process_id Processes.parent_process_id" c!"" (eqC · (.tstats ⟨false, false, false, false, false, true, 10000000, (some c!"null")⟩ [(.call c!"count" []), (.alias (.call c!"min" [(.const (.field c!"_time"))]) c!"firstTime"), (.alias (.call c!"max" [(.const (.field c!"_time"))]) c!"lastTime")] (some c!"Endpoint.Processes") none (some (.binary (.binary (.binary (.const (.field c!"Processes.process_name")) c!"=" (.const (.str c!"sc.exe"))) c!"OR" (.binary (.const (.field c!"Processes.original_file_name")) c!"=" (.const (.str c!"sc.exe")))) c!"AND" (.binary (.binary (.const (.field c!"Processes.process")) c!"=" (.const (.wildcard c!"*\\\\\\\\*"))) c!"AND" (.binary (.const (.field c!"Processes.process")) c!"=" (.const (.wildcard c!"*start*")))))) (some [⟨c!"Processes.dest", none⟩, ⟨c!"Processes.user", none⟩, ⟨c!"Processes.parent_process_name", none⟩, ⟨c!"Processes.process_name", none⟩, ⟨c!"Processes.process", none⟩, ⟨c!"Processes.process_id", none⟩, ⟨c!"Processes.parent_process_id", none⟩]) none)) = true := by decide +kernel

/- commands/cmd_t_stats/spl.rs:971 -/
example : gives Spl.tstats Spl.fix c!"tstats\n        summariesonly=false allow_old_summaries=true fillnull_value=null\n        count min(_time) as firstTime max(_time) as lastTime\n        FROM datamodel=Endpoint.Registry\n        where Registry.registry_path= \"*\\\\SYSTEM\\\\CurrentControlSet\\\\Services*\" AND (\n            Registry.action = deleted OR (\n                Registry.registry_value_name = DeleteFlag AND\n                Registry.registry_value_data = 0x00000001 AND Registry.action=modified\n            )\n        )\n        by Registry.registry_key_name Registry.user Registry.registry_path Registry.registry_value_data Registry.registry_value_name Registry.action Registry.dest" c!"" (eqC · (.tstats ⟨false, false, false, false, false, true, 10000000, (some c!"null")⟩ [(.call c!"count" []), (.alias (.call c!"min" [(.const (.field c!"_time"))]) c!"firstTime"), (.alias (.call c!"max" [(.const (.field c!"_time"))]) c!"lastTime")] (some c!"Endpoint.Registry") none (some (.binary (.binary (.const (.field c!"Registry.registry_path")) c!"=" (.const (.wildcard c!"*\\\\SYSTEM\\\\CurrentControlSet\\\\Services*"))) c!"AND" (.binary (.binary (.const (.field c!"Registry.action")) c!"=" (.const (.str c!"deleted"))) c!"OR" (.binary (.binary (.binary (.const (.field c!"Registry.registry_value_name")) c!"=" (.const (.str c!"DeleteFlag"))) c!"AND" (.binary (.const (.field c!"Registry.registry_value_data")) c!"=" (.const (.str c!"0x00000001")))) c!"AND" (.binary (.const (.field c!"Registry.action")) c!"=" (.const (.str c!"modified"))))))) (some [⟨c!"Registry.registry_key_name", none⟩, ⟨c!"Registry.user", none⟩, ⟨c!"Registry.registry_path", none⟩, ⟨c!"Registry.registry_value_data", none⟩, ⟨c!"Registry.registry_value_name", none⟩, ⟨c!"Registry.action", none⟩, ⟨c!"Registry.dest", none⟩]) none)) = true := by decide +kernel

/- commands/cmd_table/spl.rs:60 -/
example : gives Spl.pipeline Spl.fix c!"table foo bar baz*" c!"" (eqP · [(.table [c!"foo", c!"bar", c!"baz*"])]) = true := by decide +kernel

/- commands/cmd_table/spl.rs:80 -/
example : gives Spl.pipeline Spl.fix c!"table _time, dest, user, Operation, EventType, Query, Consumer, Filter" c!"" (eqP · [(.table [c!"_time", c!"dest", c!"user", c!"Operation", c!"EventType", c!"Query", c!"Consumer", c!"Filter"])]) = true := by decide +kernel

/- commands/cmd_table/spl.rs:105 -/
example : gives Spl.pipeline Spl.fix c!"table protoPayload.@type protoPayload.status.details{}.@type protoPayload.status.details{}.violations{}.callerIp protoPayload.status.details{}.violations{}.type protoPayload.status.message" c!"" (eqP · [(.table [c!"protoPayload.@type", c!"protoPayload.status.details{}.@type", c!"protoPayload.status.details{}.violations{}.callerIp", c!"protoPayload.status.details{}.violations{}.type", c!"protoPayload.status.message"])]) = true := by decide +kernel

/- commands/cmd_top/spl.rs:144 -/
example : gives Spl.top Spl.fix c!"top  sourceIPs{} user.username verb annotations.authorization.k8s.io/decision" c!"" (eqC · (.top ⟨[c!"sourceIPs{}", c!"user.username", c!"verb", c!"annotations.authorization.k8s.io/decision"], 10, none, c!"count", c!"OTHER", c!"percent", true, true, false⟩)) = true := by decide +kernel

/- commands/cmd_where/spl.rs:64 -/
example : gives Spl.pipeline Spl.fix c!"where isnull(reason)" c!"" (eqP · [(.where_ (.call c!"isnull" [(.const (.field c!"reason"))]))]) = true := by decide +kernel

/- spl/parser.rs:1492 -/
example : gives Lex.timeSpan () c!"5minutes" c!"" (fun v => decide (v = ⟨5, c!"minutes"⟩)) = true := by decide +kernel

/- spl/parser.rs:1508 -/
example : gives Lex.token () c!"token123" c!"" (fun v => decide (v = c!"token123")) = true := by decide +kernel

/- spl/parser.rs:1513 -/
example : gives Lex.doubleQuoted () c!"\"double quoted string\" and then some" c!" and then some" (fun v => decide (v = c!"double quoted string")) = true := by decide +kernel

/- spl/parser.rs:1517 -/
example : rejects Lex.doubleQuoted () c!"double quoted \"string\"" = true := by decide +kernel

/- spl/parser.rs:1542 -/
example : gives Lex.bool_ () c!"false" c!"" (fun v => decide (v = false)) = true := by decide +kernel

/- spl/parser.rs:1543 -/
example : gives Lex.bool_ () c!"f" c!"" (fun v => decide (v = false)) = true := by decide +kernel

/- spl/parser.rs:1544 -/
example : gives Lex.bool_ () c!"true" c!"" (fun v => decide (v = true)) = true := by decide +kernel

/- spl/parser.rs:1545 -/
example : gives Lex.bool_ () c!"t" c!"" (fun v => decide (v = true)) = true := by decide +kernel

/- spl/parser.rs:1549 -/
example : gives Lex.wildcard () c!"*" c!"" (fun v => decide (v = c!"*")) = true := by decide +kernel

/- spl/parser.rs:1550 -/
example : gives Lex.wildcard () c!"g*" c!"" (fun v => decide (v = c!"g*")) = true := by decide +kernel

/- spl/parser.rs:1551 -/
example : gives Lex.wildcard () c!"foo*" c!"" (fun v => decide (v = c!"foo*")) = true := by decide +kernel

/- spl/parser.rs:1552 -/
example : gives Lex.wildcard () c!"foo*bar" c!"" (fun v => decide (v = c!"foo*bar")) = true := by decide +kernel

/- spl/parser.rs:1556 -/
example : gives Lex.wildcard () c!"*foo*" c!"" (fun v => decide (v = c!"*foo*")) = true := by decide +kernel

/- spl/parser.rs:1557 -/
example : gives Lex.wildcard () c!"\"str*\"" c!"" (fun v => decide (v = c!"str*")) = true := by decide +kernel

/- spl/parser.rs:1558 -/
example : rejects Lex.wildcard () c!"str" = true := by decide +kernel

/- spl/parser.rs:1559 -/
example : rejects Lex.wildcard () c!"foo bar" = true := by decide +kernel

/- spl/parser.rs:1560 -/
example : rejects Lex.wildcard () c!"\"str\"" = true := by decide +kernel

/- spl/parser.rs:1572 -/
example : gives Spl.expr Spl.fix c!"junk" c!"" (eqE · (.const (.field c!"junk"))) = true := by decide +kernel

/- spl/parser.rs:1588 -/
example : gives Lex.fieldAndValue () c!"foo   = bar" c!"" (fun v => decide (v = (c!"foo", c!"bar"))) = true := by decide +kernel

/- spl/parser.rs:1602 -/
example : gives Lex.fieldAndConstant () c!"f=g*" c!"" (fun v => decide (v = (c!"f", (.wildcard c!"g*")))) = true := by decide +kernel

/- spl/parser.rs:1622 -/
example : gives Lex.commandOptions () c!"foo=bar bar=baz" c!"" (fun v => decide (v = [(c!"foo", (.field c!"bar")), (c!"bar", (.field c!"baz"))])) = true := by decide +kernel

/- spl/parser.rs:1652 -/
example : gives Lex.fieldList0 () c!"a ,   b,c, d" c!"" (fun v => decide (v = [c!"a", c!"b", c!"c", c!"d"])) = true := by decide +kernel

/- spl/parser.rs:1682 -/
example : gives Lex.int () c!"-100500" c!"" (fun v => decide (v = (-100500))) = true := by decide +kernel

/- spl/parser.rs:1690 -/
example : gives Lex.timeSpan () c!"1sec" c!"" (fun v => decide (v = ⟨1, c!"seconds"⟩)) = true := by decide +kernel

/- spl/parser.rs:1707 -/
example : gives Lex.timeSpan () c!"5s" c!"" (fun v => decide (v = ⟨5, c!"seconds"⟩)) = true := by decide +kernel

/- spl/parser.rs:1724 -/
example : gives Lex.timeSpan () c!"5second" c!"" (fun v => decide (v = ⟨5, c!"seconds"⟩)) = true := by decide +kernel

/- spl/parser.rs:1741 -/
example : gives Lex.timeSpan () c!"5sec" c!"" (fun v => decide (v = ⟨5, c!"seconds"⟩)) = true := by decide +kernel

/- spl/parser.rs:1758 -/
example : gives Lex.timeSpan () c!"5m" c!"" (fun v => decide (v = ⟨5, c!"minutes"⟩)) = true := by decide +kernel

/- spl/parser.rs:1775 -/
example : gives Lex.timeSpan () c!"5mins" c!"" (fun v => decide (v = ⟨5, c!"minutes"⟩)) = true := by decide +kernel

/- spl/parser.rs:1792 -/
example : gives Lex.timeSpan () c!"-5mon" c!"" (fun v => decide (v = ⟨(-5), c!"months"⟩)) = true := by decide +kernel

/- spl/parser.rs:1812 -/
example : gives Lex.constant () c!"-5d@w-2h" c!"" (fun v => decide (v = (.snapTime ⟨(some ⟨(-5), c!"days"⟩), c!"weeks", (some ⟨(-2), c!"hours"⟩)⟩))) = true := by decide +kernel

/- spl/parser.rs:1839 -/
example : gives Lex.constant () c!"-5d@w0-2h" c!"" (fun v => decide (v = (.snapTime ⟨(some ⟨(-5), c!"days"⟩), c!"weeks", (some ⟨(-2), c!"hours"⟩)⟩))) = true := by decide +kernel

/- spl/parser.rs:1866 -/
example : gives Lex.constant () c!"-5d@w" c!"" (fun v => decide (v = (.snapTime ⟨(some ⟨(-5), c!"days"⟩), c!"weeks", none⟩))) = true := by decide +kernel

/- spl/parser.rs:1887 -/
example : gives Lex.constant () c!"@w" c!"" (fun v => decide (v = (.snapTime ⟨none, c!"weeks", none⟩))) = true := by decide +kernel

/- spl/parser.rs:1905 -/
example : gives Lex.constant () c!"@w-1d" c!"" (fun v => decide (v = (.snapTime ⟨none, c!"weeks", (some ⟨(-1), c!"days"⟩)⟩))) = true := by decide +kernel

/- spl/parser.rs:1926 -/
example : gives Lex.constant () c!"-1h@h" c!"" (fun v => decide (v = (.snapTime ⟨(some ⟨(-1), c!"hours"⟩), c!"hours", none⟩))) = true := by decide +kernel

/- spl/parser.rs:1947 -/
example : gives Lex.constant () c!"-h@h" c!"" (fun v => decide (v = (.snapTime ⟨(some ⟨(-1), c!"hours"⟩), c!"hours", none⟩))) = true := by decide +kernel

/- spl/parser.rs:1968 -/
example : gives Lex.constant () c!"h@h" c!"" (fun v => decide (v = (.snapTime ⟨(some ⟨1, c!"hours"⟩), c!"hours", none⟩))) = true := by decide +kernel

/- spl/parser.rs:1997 -/
example : gives Lex.commandOptions () c!"a=b c=1 d=\"e\" f=g* h=-15m i=10.0.0.0/8 k=f" c!"" (fun v => decide (v = [(c!"a", (.field c!"b")), (c!"c", (.int 1)), (c!"d", (.str c!"e")), (c!"f", (.wildcard c!"g*")), (c!"h", (.timeSpan ⟨(-15), c!"minutes"⟩)), (c!"i", (.ipv4cidr c!"10.0.0.0/8")), (c!"k", (.bool false))])) = true := by decide +kernel

/- spl/parser.rs:2049 -/
example : gives Spl.expr Spl.fix c!"a OR b" c!"" (eqE · (.binary (.const (.field c!"a")) c!"OR" (.const (.field c!"b")))) = true := by decide +kernel

/- spl/parser.rs:2068 -/
example : gives Spl.expr Spl.fix c!"productID=\"S*G01\"" c!"" (eqE · (.binary (.const (.field c!"productID")) c!"=" (.const (.wildcard c!"S*G01")))) = true := by decide +kernel

/- spl/parser.rs:2102 -/
example : gives Spl.expr Spl.fix c!"(event_id=12 OR event_id=13 OR event_id=14)" c!"" (eqE · (.binary (.binary (.const (.field c!"event_id")) c!"=" (.const (.int 12))) c!"OR" (.binary (.binary (.const (.field c!"event_id")) c!"=" (.const (.int 13))) c!"OR" (.binary (.const (.field c!"event_id")) c!"=" (.const (.int 14)))))) = true := by decide +kernel

/- spl/parser.rs:2119 -/
example : gives Spl.expr Spl.fix c!"NOT x" c!"" (eqE · (.unary c!"NOT" (.const (.field c!"x")))) = true := by decide +kernel

/- spl/parser.rs:2137 -/
example : gives Spl.fields Spl.fix c!"fields column_a, column_b, column_c" c!"" (eqC · (.fields false [c!"column_a", c!"column_b", c!"column_c"])) = true := by decide +kernel

/- spl/parser.rs:2167 -/
example : gives Spl.fields Spl.fix c!"fields + column_a, column_b" c!"" (eqC · (.fields false [c!"column_a", c!"column_b"])) = true := by decide +kernel

/- spl/parser.rs:2196 -/
example : gives Spl.fields Spl.fix c!"fields - column_a, column_b" c!"" (eqC · (.fields true [c!"column_a", c!"column_b"])) = true := by decide +kernel

/- spl/parser.rs:2225 -/
example : gives Spl.sort Spl.fix c!"sort A, -B, +num(C)" c!"" (eqC · (.sort [(none, (.const (.field c!"A"))), ((some c!"-"), (.const (.field c!"B"))), ((some c!"+"), (.call c!"num" [(.const (.field c!"C"))]))] 10000 false)) = true := by decide +kernel

/- spl/parser.rs:2251 -/
example : gives Spl.pipeline Spl.fix c!"TERM(XXXXX*\\\\XXXXX*)" c!"" (eqP · [(.search (.call c!"TERM" [(.const (.field c!"XXXXX*\\\\XXXXX*"))]))]) = true := by decide +kernel

/- spl/parser.rs:2286 -/
example : gives Spl.pipeline Spl.fix c!"values(eval(mvappend(\"a: \" . a, \"b: \" . b)))" c!"" (eqP · [(.search (.call c!"values" [(.call c!"eval" [(.call c!"mvappend" [(.binary (.const (.str c!"a: ")) c!"." (.const (.field c!"a"))), (.binary (.const (.str c!"b: ")) c!"." (.const (.field c!"b")))])])]))]) = true := by decide +kernel

/- spl/parser.rs:2322 -/
example : gives Spl.sort Spl.fix c!"sort A" c!"" (eqC · (.sort [(none, (.const (.field c!"A")))] 10000 false)) = true := by decide +kernel

/- spl/parser.rs:2373 -/
example : gives Spl.pipeline Spl.fix c!"index=foo bar=baz | eval foo=bar | collect index=newer" c!"" (eqP · [(.search (.binary (.binary (.const (.field c!"index")) c!"=" (.const (.field c!"foo"))) c!"AND" (.binary (.const (.field c!"bar")) c!"=" (.const (.field c!"baz"))))), (.eval [(c!"foo", (.const (.field c!"bar")))]), (.collect ⟨c!"newer", [], true, none, none, none, c!"raw", false, true, none, none, false⟩)]) = true := by decide +kernel

/- spl/parser.rs:2413 -/
example : gives Spl.aliasedCall Spl.fix c!"first(startTime) AS startTime" c!"" (eqE · (.alias (.call c!"first" [(.const (.field c!"startTime"))]) c!"startTime")) = true := by decide +kernel

/- spl/parser.rs:2424 -/
example : gives Spl.statsCall Spl.fix c!"first(startTime) AS startTime, last(histID) AS lastPassHistId" c!"" (eqEs · [(.alias (.call c!"first" [(.const (.field c!"startTime"))]) c!"startTime"), (.alias (.call c!"last" [(.const (.field c!"histID"))]) c!"lastPassHistId")]) = true := by decide +kernel

/- spl/parser.rs:2438 -/
example : gives Spl.expr Spl.fix c!"status==200" c!"" (eqE · (.binary (.const (.field c!"status")) c!"==" (.const (.int 200)))) = true := by decide +kernel

/- spl/parser.rs:2457 -/
example : gives Spl.callExpr Spl.fix c!"case(status==200, \"OK\", status==404, \"Not found\", status==500, \"Internal Server Error\")" c!"" (eqE · (.call c!"case" [(.binary (.const (.field c!"status")) c!"==" (.const (.int 200))), (.const (.str c!"OK")), (.binary (.const (.field c!"status")) c!"==" (.const (.int 404))), (.const (.str c!"Not found")), (.binary (.const (.field c!"status")) c!"==" (.const (.int 500))), (.const (.str c!"Internal Server Error"))])) = true := by decide +kernel

/- spl/parser.rs:2463 -/
example : gives Spl.eval Spl.fix c!"eval description=case(status==200, \"OK\", status==404, \"Not found\", status==500, \"Internal Server Error\")" c!"" (eqC · (.eval [(c!"description", (.call c!"case" [(.binary (.const (.field c!"status")) c!"==" (.const (.int 200))), (.const (.str c!"OK")), (.binary (.const (.field c!"status")) c!"==" (.const (.int 404))), (.const (.str c!"Not found")), (.binary (.const (.field c!"status")) c!"==" (.const (.int 500))), (.const (.str c!"Internal Server Error"))]))])) = true := by decide +kernel

/- spl/parser.rs:2478 -/
example : gives Lex.field () c!"Processes.process_name=wmic.exe" c!"=wmic.exe" (fun v => decide (v = c!"Processes.process_name")) = true := by decide +kernel

/- spl/parser.rs:2482 -/
example : gives Lex.literal () c!"wmic.exe" c!"" (fun v => decide (v = (.str c!"wmic.exe"))) = true := by decide +kernel

/- spl/parser.rs:2486 -/
example : gives Spl.comparisonExpression Spl.fix c!"Processes.process_name=wmic.exe" c!"" (eqE · (.binary (.const (.field c!"Processes.process_name")) c!"=" (.const (.str c!"wmic.exe")))) = true := by decide +kernel

/- spl/parser.rs:2496 -/
example : gives Spl.lexpr Spl.fix c!"Processes.process_name=wmic.exe" c!"" (eqE · (.binary (.const (.field c!"Processes.process_name")) c!"=" (.const (.str c!"wmic.exe")))) = true := by decide +kernel

/- spl/parser.rs:2510 -/
example : gives Spl.lexpr Spl.fix c!"Processes.process_name=wmic.exe OR Processes.original_file_name=wmic.exe" c!"" (eqE · (.binary (.binary (.const (.field c!"Processes.process_name")) c!"=" (.const (.str c!"wmic.exe"))) c!"OR" (.binary (.const (.field c!"Processes.original_file_name")) c!"=" (.const (.str c!"wmic.exe"))))) = true := by decide +kernel

/- spl/parser.rs:2532 -/
example : gives Spl.lexpr Spl.fix c!"Processes.process = \"*os get*\"" c!"" (eqE · (.binary (.const (.field c!"Processes.process")) c!"=" (.const (.wildcard c!"*os get*")))) = true := by decide +kernel

/- spl/parser.rs:2546 -/
example : (match Spl.lexpr.run Spl.fix c!"Processes.process_name=wmic.exe OR Processes.original_file_name=wmic.exe" with | some (t, v) => gives Spl.lexpr Spl.fix c!"(Processes.process_name=wmic.exe OR Processes.original_file_name=wmic.exe)" t (eqE v) | none => false) = true := by decide +kernel

/- spl/parser.rs:2554 -/
example : gives Spl.lexpr Spl.fix c!"(Processes.process_name=wmic.exe OR Processes.original_file_name=wmic.exe)" c!"" (eqE · (.binary (.binary (.const (.field c!"Processes.process_name")) c!"=" (.const (.str c!"wmic.exe"))) c!"OR" (.binary (.const (.field c!"Processes.original_file_name")) c!"=" (.const (.str c!"wmic.exe"))))) = true := by decide +kernel

/- spl/parser.rs:2576 -/
example : gives Spl.lexpr Spl.fix c!"(Processes.process_name=wmic.exe OR Processes.original_file_name=wmic.exe) Processes.process = \"*os get*\" Processes.process=\"*/format:*\" Processes.process = \"*.xsl*\"" c!"" (eqE · (.binary (.binary (.binary (.binary (.binary (.const (.field c!"Processes.process_name")) c!"=" (.const (.str c!"wmic.exe"))) c!"OR" (.binary (.const (.field c!"Processes.original_file_name")) c!"=" (.const (.str c!"wmic.exe")))) c!"AND" (.binary (.const (.field c!"Processes.process")) c!"=" (.const (.wildcard c!"*os get*")))) c!"AND" (.binary (.const (.field c!"Processes.process")) c!"=" (.const (.wildcard c!"*/format:*")))) c!"AND" (.binary (.const (.field c!"Processes.process")) c!"=" (.const (.wildcard c!"*.xsl*"))))) = true := by decide +kernel

/- spl/parser.rs:2616 -/
example : gives Spl.lexpr Spl.fix c!"NOT x=y" c!"" (eqE · (.unary c!"NOT" (.binary (.const (.field c!"x")) c!"=" (.const (.str c!"y"))))) = true := by decide +kernel

/- spl/parser.rs:2627 -/
example : gives Lex.literal () c!"127.0.0.1" c!"" (fun v => decide (v = (.str c!"127.0.0.1"))) = true := by decide +kernel

/- spl/parser.rs:2631 -/
example : gives Lex.literal () c!"10.0.0.0/8" c!"" (fun v => decide (v = (.ipv4cidr c!"10.0.0.0/8"))) = true := by decide +kernel

/- spl/parser.rs:2635 -/
example : gives Lex.literal () c!"172.16.0.0/12" c!"" (fun v => decide (v = (.ipv4cidr c!"172.16.0.0/12"))) = true := by decide +kernel

/- spl/parser.rs:2639 -/
example : gives Lex.literal () c!"192.168.0.0/16" c!"" (fun v => decide (v = (.ipv4cidr c!"192.168.0.0/16"))) = true := by decide +kernel

/- spl/parser.rs:2643 -/
example : gives Lex.literal () c!"0:0:0:0:0:0:0:1" c!"" (fun v => decide (v = (.str c!"0:0:0:0:0:0:0:1"))) = true := by decide +kernel

/- spl/parser.rs:2648 -/
example : gives Spl.lexpr Spl.fix c!"All_Traffic.dest IN (127.0.0.1,10.0.0.0/8,172.16.0.0/12, 192.168.0.0/16, 0:0:0:0:0:0:0:1)" c!"" (eqE · (.fieldIn c!"All_Traffic.dest" [(.const (.str c!"127.0.0.1")), (.const (.ipv4cidr c!"10.0.0.0/8")), (.const (.ipv4cidr c!"172.16.0.0/12")), (.const (.ipv4cidr c!"192.168.0.0/16")), (.const (.str c!"0:0:0:0:0:0:0:1"))])) = true := by decide +kernel

/- spl/parser.rs:2666 -/
example : gives Spl.lexpr Spl.fix c!"NOT (All_Traffic.dest IN (127.0.0.1,10.0.0.0/8,172.16.0.0/12, 192.168.0.0/16, 0:0:0:0:0:0:0:1))" c!"" (eqE · (.unary c!"NOT" (.fieldIn c!"All_Traffic.dest" [(.const (.str c!"127.0.0.1")), (.const (.ipv4cidr c!"10.0.0.0/8")), (.const (.ipv4cidr c!"172.16.0.0/12")), (.const (.ipv4cidr c!"192.168.0.0/16")), (.const (.str c!"0:0:0:0:0:0:0:1"))]))) = true := by decide +kernel

/- spl/parser.rs:2688 -/
example : gives Spl.lexpr Spl.fix c!"a=1 OR b=2 AND c=3 OR (d=4 e=5)" c!"" (eqE · (.binary (.binary (.binary (.const (.field c!"a")) c!"=" (.const (.int 1))) c!"OR" (.binary (.binary (.const (.field c!"b")) c!"=" (.const (.int 2))) c!"AND" (.binary (.const (.field c!"c")) c!"=" (.const (.int 3))))) c!"OR" (.binary (.binary (.const (.field c!"d")) c!"=" (.const (.int 4))) c!"AND" (.binary (.const (.field c!"e")) c!"=" (.const (.int 5)))))) = true := by decide +kernel

/- spl/parser.rs:2711 -/
example : gives Spl.lexpr Spl.fix c!"a=1 b=2" c!"" (eqE · (.binary (.binary (.const (.field c!"a")) c!"=" (.const (.int 1))) c!"AND" (.binary (.const (.field c!"b")) c!"=" (.const (.int 2))))) = true := by decide +kernel

/- spl/parser.rs:2725 -/
example : gives Spl.expr Spl.fix c!"3" c!"" (eqE · (.const (.int 3))) = true := by decide +kernel

/- spl/parser.rs:2726 -/
example : gives Spl.expr Spl.fix c!"3x" c!"" (eqE · (.const (.field c!"3x"))) = true := by decide +kernel

/- spl/parser.rs:2731 -/
example : gives Spl.expr Spl.fix c!"note!=ESCU*" c!"" (eqE · (.binary (.const (.field c!"note")) c!"!=" (.const (.wildcard c!"ESCU*")))) = true := by decide +kernel

/- spl/parser.rs:2742 -/
example : gives Spl.expr Spl.fix c!"a=1 AND (b=2 OR c=3)" c!"" (eqE · (.binary (.binary (.const (.field c!"a")) c!"=" (.const (.int 1))) c!"AND" (.binary (.binary (.const (.field c!"b")) c!"=" (.const (.int 2))) c!"OR" (.binary (.const (.field c!"c")) c!"=" (.const (.int 3)))))) = true := by decide +kernel

/- spl/parser.rs:2759 -/
example : gives Spl.lexpr Spl.fix c!"isnull(firstTimeSeenUserApiCall) OR firstTimeSeenUserApiCall > relative_time(now(),\"-24h@h\")" c!"" (eqE · (.binary (.call c!"isnull" [(.const (.field c!"firstTimeSeenUserApiCall"))]) c!"OR" (.binary (.const (.field c!"firstTimeSeenUserApiCall")) c!">" (.call c!"relative_time" [(.call c!"now" []), (.const (.snapTime ⟨(some ⟨(-24), c!"hours"⟩), c!"hours", none⟩))])))) = true := by decide +kernel

/- spl/parser.rs:2789 -/
example : gives Lex.doubleQuoted () c!"\"xyz\"" c!"" (fun v => decide (v = c!"xyz")) = true := by decide +kernel

/- spl/parser.rs:2791 -/
example : gives Lex.doubleQuoted () c!"\"\"xyz\"\"" c!"" (fun v => decide (v = c!"\"xyz\"")) = true := by decide +kernel

/- spl/parser.rs:2793 -/
example : gives Lex.doubleQuoted () c!"\"\"" c!"" (fun v => decide (v = c!"")) = true := by decide +kernel

end Verif.Tests.Parser
