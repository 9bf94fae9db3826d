import Verif.Tests.Ext
/-
The repository's own translation tests, run against the model.  These are checks of the
model's fidelity, not proofs of properties.  As in the repository
(/repo/src/pyspark/utils.rs:24-47) texts are compared up to layout: white space, quote style and
trailing commas are ignored.
-/
namespace Verif.Tests

/-- Layout-insensitive form of Python text. -/
def strip : Str → Str
  | [] => []
  | c :: cs =>
    if isSpace c then strip cs
    else
      let rest := strip cs
      let c := if c = '\'' then '"' else c
      match c, rest with
      | ',', d :: _ => if d = ')' || d = ']' || d = '}' then rest else ',' :: rest
      | c, rest => c :: rest

/-- `generates` and `generates_runtime`, /repo/src/pyspark/utils.rs:49-71 -/
def ok (m : Mode) (query expected : Str) : Bool :=
  match parse query with
  | none => false
  | some p => match renderPipeline ⟨m, ext⟩ p with
    | none => false
    | some t => strip t == strip expected

/-- /repo/src/commands/cmd_data_model/spl.rs:105 -/
example : ok .require c!"datamodel Model search"
    c!"df_1 = commands.data_model(None, data_model_name=\"Model\", dataset_name=None, search_mode=\"search\", strict_fields=False, allow_old_summaries=False, summaries_only=True)\ndf_1" = true := by decide +kernel

/-- /repo/src/commands/cmd_eval/pyspark.rs:62 -/
example : ok .require c!"index=\"main\" | eval x=len(raw)"
    c!"df_1 = commands.search(None, index=\"main\")\ndf_2 = commands.eval(df_1, x=functions.eval.len_(F.col(\"raw\")))\ndf_2" = true := by decide +kernel

/-- /repo/src/commands/cmd_fill_null/pyspark.rs:46 -/
example : ok .disallow c!"fillnull value=NULL"
    c!"spark.table('main').fillna(\"NULL\")" = true := by decide +kernel

/-- /repo/src/commands/cmd_fill_null/pyspark.rs:54 -/
example : ok .require c!"fillnull value=NULL"
    c!"df_1 = commands.fill_null(None, value='NULL', fields=None)\ndf_1" = true := by decide +kernel

/-- /repo/src/commands/cmd_join/pyspark.rs:73 -/
example : ok .disallow c!"join product_id [search vendors]"
    c!"spark.table('main').alias(\"LEFT\").join(\n                spark.table('main').where(F.col(\"_raw\").ilike(\"%vendors%\")).alias(\"RIGHT\"),\n                (F.col(\"LEFT.product_id\") == F.col(\"RIGHT.product_id\")),\n                \"inner\"\n            )" = true := by decide +kernel

/-- /repo/src/commands/cmd_s_path/pyspark.rs:33 -/
example : ok .disallow c!"spath input=x output=y key.subkey"
    c!"spark.table(\"main\").withColumn(\n                \"y\",\n                F.get_json_object(F.col(\"x\"), \"$.key.subkey\")\n            )" = true := by decide +kernel

/-- /repo/src/commands/cmd_search/pyspark.rs:302 -/
example : ok .disallow c!"search\n        query!=\"SELECT * FROM Win32_ProcessStartTrace WHERE ProcessName = 'wsmprovhost.exe'\"\n        AND query!=\"SELECT * FROM __InstanceOperationEvent WHERE TargetInstance ISA 'AntiVirusProduct' OR TargetInstance ISA 'FirewallProduct' OR TargetInstance ISA 'AntiSpywareProduct'\"\n        "
    c!"spark.table(\"main\").where(\n                (\n                    ~F.col(\"query\").like(\"SELECT % FROM Win32_ProcessStartTrace WHERE ProcessName = 'wsmprovhost.exe'\") &\n                    ~F.col(\"query\").like(\"SELECT % FROM __InstanceOperationEvent WHERE TargetInstance ISA 'AntiVirusProduct' OR TargetInstance ISA 'FirewallProduct' OR TargetInstance ISA 'AntiSpywareProduct'\")\n                )\n            )" = true := by decide +kernel

/-- /repo/src/commands/cmd_search/pyspark.rs:319 -/
example : ok .require c!"index=\"lol\" sourcetype=\"src1\" len(x)=3"
    c!"df_1 = commands.search(None, (functions.eval.len_(F.col(\"x\")) == F.lit(3)), index=\"lol\", source_type=\"src1\")\ndf_1" = true := by decide +kernel

/-- /repo/src/commands/cmd_search/pyspark.rs:332 -/
example : ok .require c!"sourcetype=cisco"
    c!"df_1 = commands.search(None, source_type=\"cisco\")\ndf_1" = true := by decide +kernel

/-- /repo/src/commands/cmd_stats/pyspark.rs:126 -/
example : ok .disallow c!"stats\n            count min(_time) as firstTime max(_time) as lastTime\n            by Processes.parent_process_name Processes.parent_process Processes.process_name Processes.process_id Processes.process Processes.dest Processes.user"
    c!"spark.table(\"main\").groupBy([\n                \"Processes.parent_process_name\",\n                \"Processes.parent_process\",\n                \"Processes.process_name\",\n                \"Processes.process_id\",\n                \"Processes.process\",\n                \"Processes.dest\",\n                \"Processes.user\",\n            ]).agg(\n                F.count(F.lit(1)).alias(\"count\"),\n                F.min(F.col(\"_time\")).alias(\"firstTime\"),\n                F.max(F.col(\"_time\")).alias(\"lastTime\"),\n            )" = true := by decide +kernel

/-- /repo/src/commands/cmd_stats/pyspark.rs:148 -/
example : ok .disallow c!"stats\n            count min(_time) as firstTime max(_time) as lastTime\n            by Web.http_user_agent, Web.status Web.http_method, Web.url, Web.url_length, Web.src, Web.dest, sourcetype"
    c!"spark.table(\"main\").groupBy([\n                \"Web.http_user_agent\",\n                \"Web.status\",\n                \"Web.http_method\",\n                \"Web.url\",\n                \"Web.url_length\",\n                \"Web.src\",\n                \"Web.dest\",\n                \"sourcetype\",\n            ]).agg(\n                F.count(F.lit(1)).alias(\"count\"),\n                F.min(F.col(\"_time\")).alias(\"firstTime\"),\n                F.max(F.col(\"_time\")).alias(\"lastTime\"),\n            )" = true := by decide +kernel

/-- /repo/src/commands/cmd_stats/pyspark.rs:176 -/
example : ok .disallow c!"stats\n        count min(_time) AS firstTime max(_time) AS lastTime\n        BY _time span=1h Processes.user Processes.process_id Processes.process_name Processes.process Processes.process_path Processes.dest Processes.parent_process_name Processes.parent_process Processes.process_guid"
    c!"spark.table(\"main\").groupBy([\n                F.window(\"_time\", \"1 hours\"),\n                \"Processes.user\",\n                \"Processes.process_id\",\n                \"Processes.process_name\",\n                \"Processes.process\",\n                \"Processes.process_path\",\n                \"Processes.dest\",\n                \"Processes.parent_process_name\",\n                \"Processes.parent_process\",\n                \"Processes.process_guid\",\n            ]).agg(\n                F.count(F.lit(1)).alias(\"count\"),\n                F.min(F.col(\"_time\")).alias(\"firstTime\"),\n                F.max(F.col(\"_time\")).alias(\"lastTime\"),\n            )" = true := by decide +kernel

/-- /repo/src/commands/cmd_stats/pyspark.rs:205 -/
example : ok .disallow c!"stats\n        count min(_time) as firstTime max(_time) as lastTime\n        by Processes.original_file_name Processes.parent_process_name Processes.parent_process Processes.process_name Processes.process Processes.parent_process_id Processes.process_id  Processes.dest Processes.user"
    c!"spark.table(\"main\").groupBy([\n                \"Processes.original_file_name\",\n                \"Processes.parent_process_name\",\n                \"Processes.parent_process\",\n                \"Processes.process_name\",\n                \"Processes.process\",\n                \"Processes.parent_process_id\",\n                \"Processes.process_id\",\n                \"Processes.dest\",\n                \"Processes.user\",\n            ]).agg(\n                F.count(F.lit(1)).alias(\"count\"),\n                F.min(F.col(\"_time\")).alias(\"firstTime\"),\n                F.max(F.col(\"_time\")).alias(\"lastTime\"),\n            )" = true := by decide +kernel

/-- /repo/src/commands/cmd_stats/pyspark.rs:232 -/
example : ok .require c!"stats\n        count min(_time) as firstTime max(_time) as lastTime\n        by _time span=1h Processes.original_file_name Processes.parent_process_name Processes.parent_process Processes.process_name Processes.process Processes.parent_process_id Processes.process_id  Processes.dest Processes.user"
    c!"df_1 = commands.stats(\n    None,\n    by=[\n        F.window(\"_time\", \"1 hours\"),\n        F.col(\"Processes.original_file_name\"),\n        F.col(\"Processes.parent_process_name\"),\n        F.col(\"Processes.parent_process\"),\n        F.col(\"Processes.process_name\"),\n        F.col(\"Processes.process\"),\n        F.col(\"Processes.parent_process_id\"),\n        F.col(\"Processes.process_id\"),\n        F.col(\"Processes.dest\"),\n        F.col(\"Processes.user\"),\n    ],\n    count=functions.stats.count(),\n    firstTime=functions.stats.min(F.col(\"_time\")),\n    lastTime=functions.stats.max(F.col(\"_time\")),\n)\ndf_1" = true := by decide +kernel

/-- /repo/src/commands/cmd_t_stats/pyspark.rs:169 -/
example : ok .disallow c!"tstats\n            summariesonly=false allow_old_summaries=true fillnull_value=null\n            count min(_time) as firstTime max(_time) as lastTime\n            from datamodel=Endpoint.Processes\n            where (Processes.process_name=wmic.exe OR Processes.original_file_name=wmic.exe) Processes.process = \"*os get*\" Processes.process=\"*/format:*\" Processes.process = \"*.xsl*\"\n            by Processes.parent_process_name Processes.parent_process Processes.process_name Processes.process_id Processes.process Processes.dest Processes.user"
    c!"spark.table(\"Endpoint.Processes\").where(\n                (\n                    (\n                        (\n                            (\n                                (F.col(\"Processes.process_name\") == F.lit(\"wmic.exe\"))\n                                | (F.col(\"Processes.original_file_name\") == F.lit(\"wmic.exe\"))\n                            )\n                            & F.col(\"Processes.process\").like(\"%os get%\")\n                        )\n                        & F.col(\"Processes.process\").like(\"%/format:%\")\n                    )\n                    & F.col(\"Processes.process\").like(\"%.xsl%\")\n                )\n            ).groupBy([\n                \"Processes.parent_process_name\",\n                \"Processes.parent_process\",\n                \"Processes.process_name\",\n                \"Processes.process_id\",\n                \"Processes.process\",\n                \"Processes.dest\",\n                \"Processes.user\",\n            ]).agg(\n                F.count(F.lit(1)).alias(\"count\"),\n                F.min(F.col(\"_time\")).alias(\"firstTime\"),\n                F.max(F.col(\"_time\")).alias(\"lastTime\"),\n            )" = true := by decide +kernel

/-- /repo/src/commands/cmd_t_stats/pyspark.rs:208 -/
example : ok .disallow c!"tstats\n            count min(_time) as firstTime max(_time) as lastTime\n            from datamodel=Web\n            where Web.url IN (\"/AHT/AhtApiService.asmx/AuthUser\") Web.status=200 Web.http_method=POST\n            by Web.http_user_agent, Web.status Web.http_method, Web.url, Web.url_length, Web.src, Web.dest, sourcetype"
    c!"spark.table(\"Web\").where(\n                (\n                    (\n                        (F.col(\"Web.url\") == \"/AHT/AhtApiService.asmx/AuthUser\")\n                        & (F.col(\"Web.status\") == F.lit(200))\n                    ) & (F.col(\"Web.http_method\") == F.lit(\"POST\"))\n                )\n            ).groupBy([\n                \"Web.http_user_agent\",\n                \"Web.status\",\n                \"Web.http_method\",\n                \"Web.url\",\n                \"Web.url_length\",\n                \"Web.src\",\n                \"Web.dest\",\n                \"sourcetype\",\n            ]).agg(\n                F.count(F.lit(1)).alias(\"count\"),\n                F.min(F.col(\"_time\")).alias(\"firstTime\"),\n                F.max(F.col(\"_time\")).alias(\"lastTime\"),\n            )" = true := by decide +kernel

/-- /repo/src/commands/cmd_t_stats/pyspark.rs:248 -/
example : ok .disallow c!"tstats\n        summariesonly=false allow_old_summaries=true fillnull_value=null\n        count min(_time) AS firstTime max(_time)\n        AS lastTime\n        FROM datamodel=Endpoint.Processes\n        BY _time span=1h Processes.user Processes.process_id Processes.process_name Processes.process Processes.process_path Processes.dest Processes.parent_process_name Processes.parent_process Processes.process_guid"
    c!"spark.table(\"Endpoint.Processes\").groupBy([\n                F.window(\"_time\", \"1 hours\"),\n                \"Processes.user\",\n                \"Processes.process_id\",\n                \"Processes.process_name\",\n                \"Processes.process\",\n                \"Processes.process_path\",\n                \"Processes.dest\",\n                \"Processes.parent_process_name\",\n                \"Processes.parent_process\",\n                \"Processes.process_guid\",\n            ]).agg(\n                F.count(F.lit(1)).alias(\"count\"),\n                F.min(F.col(\"_time\")).alias(\"firstTime\"),\n                F.max(F.col(\"_time\")).alias(\"lastTime\"),\n            )" = true := by decide +kernel

/-- /repo/src/commands/cmd_t_stats/pyspark.rs:280 -/
example : ok .disallow c!"tstats\n        summariesonly=false allow_old_summaries=true fillnull_value=null\n        count min(_time) as firstTime max(_time) as lastTime\n        from datamodel=Endpoint.Processes\n        where (Processes.process_name =\"7z.exe\" OR Processes.process_name = \"7za.exe\" OR Processes.original_file_name = \"7z.exe\" OR Processes.original_file_name =  \"7za.exe\") AND (Processes.process=\"*\\\\C$\\\\*\" OR Processes.process=\"*\\\\Admin$\\\\*\" OR Processes.process=\"*\\\\IPC$\\\\*\")\n        by Processes.original_file_name Processes.parent_process_name Processes.parent_process Processes.process_name Processes.process Processes.parent_process_id Processes.process_id  Processes.dest Processes.user"
    c!"spark.table(\"Endpoint.Processes\").where(\n                (\n                    (\n                        (\n                            (\n                                (F.col(\"Processes.process_name\") == F.lit(\"7z.exe\")) |\n                                (F.col(\"Processes.process_name\") == F.lit(\"7za.exe\"))\n                            ) | (F.col(\"Processes.original_file_name\") == F.lit(\"7z.exe\"))\n                        ) | (F.col(\"Processes.original_file_name\") == F.lit(\"7za.exe\"))\n                    ) & (\n                        (\n                            F.col(\"Processes.process\").like(\"%\\\\C$\\\\%\")\n                            | F.col(\"Processes.process\").like(\"%\\\\Admin$\\\\%\")\n                        ) | F.col(\"Processes.process\").like(\"%\\\\IPC$\\\\%\")\n                    )\n                )\n            ).groupBy([\n                \"Processes.original_file_name\",\n                \"Processes.parent_process_name\",\n                \"Processes.parent_process\",\n                \"Processes.process_name\",\n                \"Processes.process\",\n                \"Processes.parent_process_id\",\n                \"Processes.process_id\",\n                \"Processes.dest\",\n                \"Processes.user\",\n            ]).agg(\n                F.count(F.lit(1)).alias(\"count\"),\n                F.min(F.col(\"_time\")).alias(\"firstTime\"),\n                F.max(F.col(\"_time\")).alias(\"lastTime\"),\n            )" = true := by decide +kernel

/-- /repo/src/commands/cmd_t_stats/pyspark.rs:326 -/
example : ok .require c!"tstats\n        summariesonly=false allow_old_summaries=true fillnull_value=null\n        count min(_time) as firstTime max(_time) as lastTime\n        from datamodel=Endpoint.Processes\n        where (Processes.process_name =\"7z.exe\" OR Processes.process_name = \"7za.exe\" OR Processes.original_file_name = \"7z.exe\" OR Processes.original_file_name =  \"7za.exe\") AND (Processes.process=\"*\\\\C$\\\\*\" OR Processes.process=\"*\\\\Admin$\\\\*\" OR Processes.process=\"*\\\\IPC$\\\\*\")\n        by _time span=1h Processes.original_file_name Processes.parent_process_name Processes.parent_process Processes.process_name Processes.process Processes.parent_process_id Processes.process_id  Processes.dest Processes.user"
    c!"df_1 = commands.tstats(\n    None,\n    from_={\"datamodel\": \"Endpoint.Processes\", \"nodename\": None},\n    fill_null_value=\"null\",\n    where=(\n        (\n            (\n                (\n                    (F.col(\"Processes.process_name\") == F.lit(\"7z.exe\")) |\n                    (F.col(\"Processes.process_name\") == F.lit(\"7za.exe\"))\n                ) | (F.col(\"Processes.original_file_name\") == F.lit(\"7z.exe\"))\n            ) | (F.col(\"Processes.original_file_name\") == F.lit(\"7za.exe\"))\n        ) & (\n            (\n                F.col(\"Processes.process\").like(\"%\\\\C$\\\\%\")\n                | F.col(\"Processes.process\").like(\"%\\\\Admin$\\\\%\")\n            ) | F.col(\"Processes.process\").like(\"%\\\\IPC$\\\\%\")\n        )\n    ),\n    by=[\n        F.window(\"_time\", \"1 hours\"),\n        F.col(\"Processes.original_file_name\"),\n        F.col(\"Processes.parent_process_name\"),\n        F.col(\"Processes.parent_process\"),\n        F.col(\"Processes.process_name\"),\n        F.col(\"Processes.process\"),\n        F.col(\"Processes.parent_process_id\"),\n        F.col(\"Processes.process_id\"),\n        F.col(\"Processes.dest\"),\n        F.col(\"Processes.user\"),\n    ],\n    count=functions.stats.count(),\n    firstTime=functions.stats.min(F.col(\"_time\")),\n    lastTime=functions.stats.max(F.col(\"_time\")),\n)\ndf_1" = true := by decide +kernel

/-- /repo/src/pyspark/mod.rs:26 -/
example : ok .disallow c!"n>2 | stats count() by valid"
    c!"spark.table(\"main\").where((F.col(\"n\") > F.lit(2))).groupBy([\"valid\",]).agg(F.count(F.lit(1)).alias(\"count\"))" = true := by decide +kernel

/-- /repo/src/pyspark/mod.rs:41 -/
example : ok .disallow c!"code IN(4*, 5*)"
    c!"spark.table('main').where((F.col('code').like('4%') | F.col('code').like('5%')))" = true := by decide +kernel

/-- /repo/src/pyspark/mod.rs:58 -/
example : ok .disallow c!"n>2 | stats sum(n) by valid"
    c!"spark.table('main').where((F.col('n') > F.lit(2))).groupBy(['valid',]).agg(F.sum(F.col('n')).alias('sum'))" = true := by decide +kernel

/-- /repo/src/pyspark/mod.rs:88 -/
example : ok .disallow c!"eval n=23 | stats sum(n) by valid"
    c!"spark.table('main').withColumn('n', F.lit(23)).groupBy(['valid',]).agg(F.sum(F.col('n')).alias('sum'))" = true := by decide +kernel

/-- /repo/src/pyspark/mod.rs:106 -/
example : ok .disallow c!"n>2 | stats sum(n)"
    c!"spark.table('main').where((F.col('n') > F.lit(2))).groupBy([]).agg(F.sum(F.col('n')).alias('sum'))" = true := by decide +kernel

/-- /repo/src/pyspark/mod.rs:123 -/
example : ok .disallow c!"n>2 | stats sum(n) AS total_sum"
    c!"spark.table('main').where((F.col('n') > F.lit(2))).groupBy([]).agg(F.sum(F.col('n')).alias('total_sum'))" = true := by decide +kernel

/-- /repo/src/pyspark/mod.rs:138 -/
example : ok .disallow c!"stats values(d) as set"
    c!"spark.table('main').groupBy([]).agg(F.collect_set(F.col('d')).alias('set'))" = true := by decide +kernel

/-- /repo/src/pyspark/mod.rs:154 -/
example : ok .disallow c!"stats latest(d) as latest"
    c!"spark.table('main').orderBy(F.col('_time').asc()).groupBy([]).agg(F.last(F.col('d'), True).alias('latest'))" = true := by decide +kernel

/-- /repo/src/pyspark/mod.rs:170 -/
example : ok .disallow c!"stats earliest(d) as earliest"
    c!"spark.table('main').orderBy(F.col('_time').asc()).groupBy([]).agg(F.first(F.col('d'), True).alias('earliest'))" = true := by decide +kernel

/-- /repo/src/pyspark/mod.rs:184 -/
example : ok .disallow c!"eval n_large=if(n > 3, 1, 0)"
    c!"spark.table('main').withColumn('n_large', F.when((F.col('n') > F.lit(3)), F.lit(1)).otherwise(F.lit(0)))" = true := by decide +kernel

/-- /repo/src/pyspark/mod.rs:199 -/
example : ok .disallow c!"index=main | eval coalesced=coalesce(b,c)"
    c!"spark.table('main').withColumn('coalesced', F.coalesce(F.col('b'), F.col('c')))" = true := by decide +kernel

/-- /repo/src/pyspark/mod.rs:216 -/
example : ok .disallow c!"bin span=5m n"
    c!"spark.table('main').withColumn('n', F.window(F.col('n'), '5 minutes')).withColumn('n', F.col('n.start'))" = true := by decide +kernel

/-- /repo/src/pyspark/mod.rs:230 -/
example : ok .disallow c!"eval count=mvcount(d)"
    c!"spark.table('main').withColumn('count', F.size(F.col('d')))" = true := by decide +kernel

/-- /repo/src/pyspark/mod.rs:245 -/
example : ok .disallow c!"eval count=mvindex(d,0,1)"
    c!"spark.table('main').withColumn('count', F.slice(F.col('d'), 1, 2))" = true := by decide +kernel

/-- /repo/src/pyspark/mod.rs:261 -/
example : ok .disallow c!"eval mvappended=mvappend(d,d)"
    c!"spark.table('main').withColumn('mvappended', F.concat(F.col('d'), F.col('d')))" = true := by decide +kernel

/-- /repo/src/pyspark/mod.rs:276 -/
example : ok .disallow c!"eval count=mvcount(d)"
    c!"spark.table('main').withColumn('count', F.size(F.col('d')))" = true := by decide +kernel

/-- /repo/src/pyspark/mod.rs:307 -/
example : ok .disallow c!"eval date=strftime(_time, \"%Y-%m-%d %T\")"
    c!"spark.table('main').withColumn('date', F.date_format(F.col('_time'), 'yyyy-MM-dd HH:mm:ss'))" = true := by decide +kernel

/-- /repo/src/pyspark/mod.rs:322 -/
example : ok .disallow c!"eval min=min(n, 100)"
    c!"spark.table('main').withColumn('min', F.least(F.col('n'), F.lit(100)))" = true := by decide +kernel

/-- /repo/src/pyspark/mod.rs:337 -/
example : ok .disallow c!"eval max=max(n, 0)"
    c!"spark.table('main').withColumn('max', F.greatest(F.col('n'), F.lit(0)))" = true := by decide +kernel

/-- /repo/src/pyspark/mod.rs:352 -/
example : ok .disallow c!"eval rounded=round(42.003, 0)"
    c!"spark.table('main').withColumn('rounded', F.round(F.lit(42.003), 0))" = true := by decide +kernel

/-- /repo/src/pyspark/mod.rs:367 -/
example : ok .disallow c!"eval sub=substr(a, 3, 5)"
    c!"spark.table('main').withColumn('sub', F.substring(F.col('a'), 3, 5))" = true := by decide +kernel

/-- /repo/src/pyspark/mod.rs:382 -/
example : ok .disallow c!"eval lenA=len(a)"
    c!"spark.table('main').withColumn('lenA', F.length(F.col('a')))" = true := by decide +kernel

/-- /repo/src/pyspark/mod.rs:443 -/
example : ok .disallow c!"makeresults count=10 annotate=true"
    c!"spark.range(0, 10, 1).withColumn(\n                '_time', F.current_timestamp()\n            ).withColumn(\n                '_raw', F.lit(None)\n            ).withColumn(\n                'host', F.lit(None)\n            ).withColumn(\n                'source', F.lit(None)\n            ).withColumn(\n                'sourcetype', F.lit(None)\n            ).withColumn(\n                'splunk_server', F.lit('local')\n            ).withColumn(\n                'splunk_server_group', F.lit(None)\n            )" = true := by decide +kernel

/-- /repo/src/pyspark/mod.rs:465 -/
example : ok .disallow c!"makeresults count=10"
    c!"spark.range(0, 10, 1).withColumn(\n                '_time', F.current_timestamp()\n            )" = true := by decide +kernel

/-- /repo/src/pyspark/mod.rs:484 -/
example : ok .disallow c!"addtotals fieldname=num_total num_man num_woman"
    c!"spark.table('main').withColumn(\n                'num_total',\n                F.when(\n                    F.col('num_man').cast('double').isNotNull(),\n                    F.col('num_man')\n                ).otherwise(\n                    F.lit(0.0)\n                ) + F.when(\n                    F.col('num_woman').cast('double').isNotNull(),\n                    F.col('num_woman')\n                ).otherwise(\n                    F.lit(0.0)\n                )\n            )" = true := by decide +kernel

/-- /repo/src/pyspark/mod.rs:551 -/
example : ok .disallow c!"eval in_range=if(cidrmatch(\"10.0.0.0/24\", src_ip), 1, 0)"
    c!"spark.table('main').withColumn(\n                'in_range',\n                F.when(\n                    F.expr(\n                        \"cidr_match('10.0.0.0/24', src_ip)\"\n                    ),\n                    F.lit(1)\n                ).otherwise(F.lit(0))\n            )" = true := by decide +kernel

/-- /repo/src/pyspark/mod.rs:576 -/
example : ok .disallow c!"eval in_range=if(cidrmatch(10.0.0.0/24, src_ip), 1, 0)"
    c!"spark.table('main').withColumn('in_range', F.when(F.expr(\"cidr_match('10.0.0.0/24', src_ip)\"), F.lit(1)).otherwise(F.lit(0)))" = true := by decide +kernel

/-- /repo/src/pyspark/mod.rs:591 -/
example : ok .disallow c!"src_ip = 10.0.0.0/16"
    c!"spark.table('main').where(F.expr(\"cidr_match('10.0.0.0/16', src_ip)\"))" = true := by decide +kernel

/-- /repo/src/pyspark/mod.rs:606 -/
example : ok .disallow c!"src_ip = \"x*\""
    c!"spark.table('main').where(F.col(\"src_ip\").like(\"x%\"))" = true := by decide +kernel

/-- /repo/src/pyspark/mod.rs:626 -/
example : ok .disallow c!"eval fsize_quant=memk(fsize)"
    c!"spark.table('main').withColumn(\n                'fsize_quant',\n                F.regexp_extract(\n                    F.col('fsize'),\n                    '(?i)^(\\d*\\.?\\d+)([kmg])$',\n                    1\n                ).cast(\n                    'double'\n                ) * F.when(\n                    (\n                        F.upper(\n                            F.regexp_extract(\n                                F.col('fsize'),\n                                '(?i)^(\\d*\\.?\\d+)([kmg])$',\n                                2\n                            )\n                        ) == F.lit('K')\n                    ),\n                    F.lit(1.0)\n                ).when(\n                    (\n                        F.upper(\n                            F.regexp_extract(\n                                F.col('fsize'),\n                                '(?i)^(\\d*\\.?\\d+)([kmg])$',\n                                2\n                            )\n                        ) == F.lit('M')\n                    ),\n                    F.lit(1024.0)\n                ).when(\n                    (\n                        F.upper(\n                            F.regexp_extract(\n                                F.col('fsize'),\n                                '(?i)^(\\d*\\.?\\d+)([kmg])$',\n                                2\n                            )\n                        ) == F.lit('G')\n                    ),\n                    F.lit(1048576.0)\n                ).otherwise(\n                    F.lit(1.0)\n                )\n            )" = true := by decide +kernel

/-- /repo/src/pyspark/mod.rs:687 -/
example : ok .disallow c!"eval rmunit=rmunit(fsize)"
    c!"spark.table('main').withColumn(\n                'rmunit',\n                F.regexp_extract(\n                    F.col('fsize'),\n                    '(?i)^(\\d*\\.?\\d+)(\\w*)$',\n                    1\n                ).cast('double')\n            )" = true := by decide +kernel

/-- /repo/src/pyspark/mod.rs:709 -/
example : ok .disallow c!"eval rmcomma=rmcomma(s)"
    c!"spark.table('main').withColumn(\n                'rmcomma',\n                F.regexp_replace(F.col('s'), ',', '').cast('double')\n            )" = true := by decide +kernel

/-- /repo/src/pyspark/mod.rs:727 -/
example : ok .disallow c!"convert timeformat=\"%Y\" ctime(_time) AS year"
    c!"spark.table('main').withColumn('year', F.date_format(F.col('_time'), 'yyyy'))" = true := by decide +kernel

/-- /repo/src/pyspark/mod.rs:768 -/
example : ok .disallow c!"multisearch [index=regionA | fields +country, orders] [index=regionB | fields +country, orders]"
    c!"spark.table('regionA').select(F.col('country'), F.col('orders')).unionByName(spark.table('regionB').select(F.col('country'), F.col('orders')), allowMissingColumns=True)" = true := by decide +kernel

/-- /repo/src/pyspark/mod.rs:840 -/
example : ok .disallow c!"replace(myColumn, \"before\", \"after\")"
    c!"spark.table('main').where(F.regexp_replace(F.col('myColumn'), 'before', 'after'))" = true := by decide +kernel

/-- /repo/src/pyspark/mod.rs:854 -/
example : ok .disallow c!"lower(myColumn)"
    c!"spark.table('main').where(F.lower(F.col('myColumn')))" = true := by decide +kernel

/-- /repo/src/pyspark/mod.rs:870 -/
example : ok .disallow c!"strftime(_time, test)"
    c!"spark.table('main').where(F.date_format(F.col('_time'), 'test'))" = true := by decide +kernel

/-- /repo/src/pyspark/mod.rs:914 -/
example : ok .disallow c!"head 5"
    c!"spark.table('main').limit(5)" = true := by decide +kernel

/-- /repo/src/pyspark/mod.rs:920 -/
example : ok .disallow c!"head limit=5"
    c!"spark.table('main').limit(5)" = true := by decide +kernel

/-- /repo/src/pyspark/mod.rs:926 -/
example : ok .disallow c!"head count<5"
    c!"spark.table('main').limit(5)" = true := by decide +kernel

/-- /repo/src/pyspark/mod.rs:932 -/
example : ok .disallow c!"head count<=5 keeplast=true"
    c!"spark.table('main').limit(7)" = true := by decide +kernel

/-- /repo/src/pyspark/mod.rs:940 -/
example : ok .disallow c!"index=main | top 5 showperc=false x"
    c!"spark.table('main').groupBy(['x',]).agg(F.count().alias('count')).orderBy(F.col('count').desc()).limit(5)" = true := by decide +kernel

/-- /repo/src/pyspark/mod.rs:948 -/
example : ok .disallow c!"index=main | rare 5 showperc=false x"
    c!"spark.table('main').groupBy(['x',]).agg(F.count().alias('count')).orderBy(F.col('count').asc()).limit(5)" = true := by decide +kernel

/-- /repo/src/pyspark/mod.rs:956 -/
example : ok .disallow c!"index=alt | where n>2"
    c!"spark.table(\"alt\").where((F.col(\"n\") > F.lit(2)))" = true := by decide +kernel

/-- /repo/src/pyspark/mod.rs:964 -/
example : ok .disallow c!"index=alt | table x y z"
    c!"spark.table(\"alt\").select(F.col(\"x\"), F.col(\"y\"), F.col(\"z\"))" = true := by decide +kernel

/-- /repo/src/pyspark/mod.rs:972 -/
example : ok .disallow c!"index=alt | sort x, -y"
    c!"spark.table(\"alt\").orderBy(F.col(\"x\").asc(), F.col(\"y\").desc()).limit(10000)" = true := by decide +kernel

/-- /repo/src/pyspark/mod.rs:980 -/
example : ok .disallow c!"index=alt | sort 0 x, -y desc"
    c!"spark.table(\"alt\").orderBy(F.col(\"x\").desc(), F.col(\"y\").asc())" = true := by decide +kernel

/-- /repo/src/pyspark/mod.rs:988 -/
example : ok .disallow c!"index=alt | rex field=_raw \"From: <(?<from>.*)> To: <(?<to>.*)>\""
    c!"spark.table(\"alt\").withColumn(\n                \"from\",\n                F.regexp_extract(F.col(\"_raw\"), r\"From: <(?<from>.*)> To: <(?<to>.*)>\", 1)\n            ).withColumn(\n                \"to\",\n                F.regexp_extract(F.col(\"_raw\"), r\"From: <(?<from>.*)> To: <(?<to>.*)>\", 2)\n            )" = true := by decide +kernel

/-- /repo/src/pyspark/mod.rs:1002 -/
example : ok .disallow c!"index=alt | regex \"From: <(?<from>.*)> To: <(?<to>.*)>\""
    c!"spark.table(\"alt\").where(\n                F.regexp_like(F.col(\"_raw\"), r\"From: <(?<from>.*)> To: <(?<to>.*)>\")\n            )" = true := by decide +kernel

/-- /repo/src/pyspark/mod.rs:1012 -/
example : ok .disallow c!"index=alt | regex c!=\"From: <(?<from>.*)> To: <(?<to>.*)>\""
    c!"spark.table(\"alt\").where(\n                ~F.regexp_like(F.col(\"c\"), r\"From: <(?<from>.*)> To: <(?<to>.*)>\")\n            )" = true := by decide +kernel

/-- /repo/src/pyspark/mod.rs:1022 -/
example : ok .disallow c!"index=alt | rename x AS y, a AS b"
    c!"spark.table(\"alt\").withColumnRenamed(\"x\", \"y\").withColumnRenamed(\"a\", \"b\")" = true := by decide +kernel

/-- /repo/src/pyspark/mod.rs:1030 -/
example : ok .disallow c!"index=alt | eval description=case(status==200, \"OK\", status==404, \"Not found\", status==500, \"Internal Server Error\")"
    c!"spark.table(\"alt\").withColumn(\n                \"description\",\n                F.when(\n                    (F.col(\"status\") == F.lit(200)),\n                    F.lit(\"OK\")\n                ).when(\n                    (F.col(\"status\") == F.lit(404)),\n                    F.lit(\"Not found\")\n                ).when(\n                    (F.col(\"status\") == F.lit(500)),\n                    F.lit(\"Internal Server Error\")\n                )\n            )" = true := by decide +kernel

/-- /repo/src/pyspark/mod.rs:1050 -/
example : ok .disallow c!"index=alt | eval x=max(a, b, c)"
    c!"spark.table(\"alt\").withColumn(\n                \"x\",\n                F.greatest(F.greatest(F.col(\"a\"), F.col(\"b\")), F.col(\"c\"))\n            )" = true := by decide +kernel

/-- /repo/src/pyspark/mod.rs:1061 -/
example : ok .disallow c!"index=alt | eval x=avg(a, b, c)"
    c!"spark.table(\"alt\").withColumn(\n                \"x\",\n                ((F.col(\"a\") + F.col(\"b\")) + F.col(\"c\")) / 3\n            )" = true := by decide +kernel

/-- /repo/src/pyspark/mod.rs:1072 -/
example : ok .disallow c!"index=alt | stats percentile99(a) AS x"
    c!"spark.table(\"alt\").groupBy([]).agg(\n                F.percentile_approx(F.col(\"a\"), 0.99).alias(\"x\")\n            )" = true := by decide +kernel

/-- /repo/src/pyspark/mod.rs:1082 -/
example : ok .disallow c!"tail 5"
    c!"spark.table(\"main\").tail(5)" = true := by decide +kernel

/-- /repo/src/pyspark/mod.rs:1087 -/
example : ok .disallow c!"search note!=ESCU*"
    c!"spark.table(\"main\").where(~F.col(\"note\").like(\"ESCU%\"))" = true := by decide +kernel

end Verif.Tests
