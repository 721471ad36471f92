import Verif.Tests.Tape

/-!
# The sessions recorded in /repo/recordings

Written by tools/gen_traces.py. Tests of the model, not proofs: each theorem evaluates the model on one recorded session.
-/

namespace Bolt.Tests

set_option maxRecDepth 100000

namespace BoltConn_Close

/-- recordings/TestBoltConn_Close.json after the first four events -/
def events : List (Bool × Bytes) :=
  []

/-- the calls of the test -/
def calls : List (Call KVs) :=
  [.close]

/-- what they return -/
def results : List Res :=
  [.done]

/-- The handshake and INIT. -/
theorem opens : opening (be 20 0x6060b01700000001000000000000000000000000) (be 4 0x00000001) (be 40 0x0024b201d013476f6c616e674e656f346a426f6c742f312e30a186736368656d65846e6f6e650000) (be 26 0x0016b170a1867365727665728b4e656f346a2f332e342e360000) = true := by decide +kernel

/-- The session. -/
theorem replays : replay events calls results = true := by decide +kernel

end BoltConn_Close

namespace BoltConn_CloseStatementOnError

/-- recordings/TestBoltConn_CloseStatementOnError.json after the first four events -/
def events : List (Bool × Bytes) :=
  [(true, (be 64 0x003cb210d0375448495320495320412042414420515545525920414e442053484f554c442052455455524e2041204641494c555245204d455353414745a00000)),
   (true, (be 6 0x0002b03f0000)),
   (false, (be 187 0x00b7b17fa284636f6465d0254e656f2e436c69656e744572726f722e53746174656d656e742e53796e7461784572726f72876d657373616765d07e496e76616c696420696e707574202754273a206578706563746564203c696e69743e20286c696e6520312c20636f6c756d6e203120286f66667365743a203029290a225448495320495320412042414420515545525920414e442053484f554c442052455455524e2041204641494c555245204d455353414745220a205e0000)),
   (true, (be 6 0x0002b00e0000)),
   (false, (be 6 0x0002b07e0000)),
   (false, (be 7 0x0003b170a00000)),
   (true, (be 17 0x000db2108952455455524e20313ba00000)),
   (true, (be 6 0x0002b03f0000)),
   (false, (be 42 0x0026b170a2d016726573756c745f617661696c61626c655f616674657202866669656c64739181310000))]

/-- the calls of the test -/
def calls : List (Call KVs) :=
  [.query (be 55 0x5448495320495320412042414420515545525920414e442053484f554c442052455455524e2041204641494c555245204d455353414745) [],
   .query (be 9 0x52455455524e20313b) [],
   .close]

/-- what they return -/
def results : List Res :=
  [.failure [((be 4 0x636f6465), .str (be 37 0x4e656f2e436c69656e744572726f722e53746174656d656e742e53796e7461784572726f72)), ((be 7 0x6d657373616765), .str (be 126 0x496e76616c696420696e707574202754273a206578706563746564203c696e69743e20286c696e6520312c20636f6c756d6e203120286f66667365743a203029290a225448495320495320412042414420515545525920414e442053484f554c442052455455524e2041204641494c555245204d455353414745220a205e))],
   .rows [((be 22 0x726573756c745f617661696c61626c655f6166746572), .int .int64 2), ((be 6 0x6669656c6473), .list [.str (be 1 0x31)])],
   .done]

/-- The handshake and INIT. -/
theorem opens : opening (be 20 0x6060b01700000001000000000000000000000000) (be 4 0x00000001) (be 40 0x0024b201d013476f6c616e674e656f346a426f6c742f312e30a186736368656d65846e6f6e650000) (be 26 0x0016b170a1867365727665728b4e656f346a2f332e342e360000) = true := by decide +kernel

/-- The session. -/
theorem replays : replay events calls results = true := by decide +kernel

end BoltConn_CloseStatementOnError

namespace BoltConn_ExecNeo

/-- recordings/TestBoltConn_ExecNeo.json after the first four events -/
def events : List (Bool × Bytes) :=
  [(true, (be 143 0x008bb210d0604352454154452028663a464f4f207b613a207b617d2c20623a207b627d2c20633a207b637d2c20643a207b647d2c20653a207b657d2c20663a207b667d2c20673a207b677d2c20683a207b687d7d292d5b623a4241525d2d3e28633a42415a29a88162018163c38164c08165930102038166c1400b3333333333338167ff8168c2816183666f6f0000)),
   (true, (be 6 0x0002b03f0000)),
   (false, (be 15 0x000bb170a1866669656c6473900000)),
   (false, (be 90 0x0056b170a2857374617473a48c6c6162656c732d616464656402d01572656c6174696f6e73686970732d63726561746564018d6e6f6465732d63726561746564028e70726f706572746965732d73657407847479706581770000)),
   (true, (be 39 0x0023b210d01e4d415443482028663a464f4f292053455420662e61203d2022626172223ba00000)),
   (true, (be 6 0x0002b03f0000)),
   (false, (be 15 0x000bb170a1866669656c6473900000)),
   (false, (be 37 0x0021b170a2857374617473a18e70726f706572746965732d73657401847479706581770000)),
   (true, (be 54 0x0032b210d02d4d415443482028663a464f4f292d5b623a4241525d2d3e28633a42415a292044454c45544520662c20622c2063a00000)),
   (true, (be 6 0x0002b03f0000)),
   (false, (be 15 0x000bb170a1866669656c6473900000)),
   (false, (be 60 0x0038b170a2857374617473a28d6e6f6465732d64656c6574656402d01572656c6174696f6e73686970732d64656c6574656401847479706581770000))]

/-- the calls of the test -/
def calls : List (Call KVs) :=
  [.exec (be 96 0x4352454154452028663a464f4f207b613a207b617d2c20623a207b627d2c20633a207b637d2c20643a207b647d2c20653a207b657d2c20663a207b667d2c20673a207b677d2c20683a207b687d7d292d5b623a4241525d2d3e28633a42415a29) [((be 1 0x62), .int .int 1), ((be 1 0x63), .bool true), ((be 1 0x64), .nil), ((be 1 0x65), .list [.int .int 1, .int .int 2, .int .int 3]), ((be 1 0x66), .float64 0x400b333333333333), ((be 1 0x67), .int .int (-1)), ((be 1 0x68), .bool false), ((be 1 0x61), .str (be 3 0x666f6f))],
   .exec (be 30 0x4d415443482028663a464f4f292053455420662e61203d2022626172223b) [],
   .exec (be 45 0x4d415443482028663a464f4f292d5b623a4241525d2d3e28633a42415a292044454c45544520662c20622c2063) [],
   .close]

/-- what they return -/
def results : List Res :=
  [.summary [((be 5 0x7374617473), .map [((be 12 0x6c6162656c732d6164646564), .int .int64 2), ((be 21 0x72656c6174696f6e73686970732d63726561746564), .int .int64 1), ((be 13 0x6e6f6465732d63726561746564), .int .int64 2), ((be 14 0x70726f706572746965732d736574), .int .int64 7)]), ((be 4 0x74797065), .str (be 1 0x77))],
   .summary [((be 5 0x7374617473), .map [((be 14 0x70726f706572746965732d736574), .int .int64 1)]), ((be 4 0x74797065), .str (be 1 0x77))],
   .summary [((be 5 0x7374617473), .map [((be 13 0x6e6f6465732d64656c65746564), .int .int64 2), ((be 21 0x72656c6174696f6e73686970732d64656c65746564), .int .int64 1)]), ((be 4 0x74797065), .str (be 1 0x77))],
   .done]

/-- The handshake and INIT. -/
theorem opens : opening (be 20 0x6060b01700000001000000000000000000000000) (be 4 0x00000001) (be 40 0x0024b201d013476f6c616e674e656f346a426f6c742f312e30a186736368656d65846e6f6e650000) (be 7 0x0003b170a00000) = true := by decide +kernel

/-- The session. -/
theorem replays : replay events calls results = true := by decide +kernel

/-- `RowsAffected` of the results of `Exec` -/
theorem affected : affects [((be 5 0x7374617473), .map [((be 12 0x6c6162656c732d6164646564), .int .int64 2), ((be 21 0x72656c6174696f6e73686970732d63726561746564), .int .int64 1), ((be 13 0x6e6f6465732d63726561746564), .int .int64 2), ((be 14 0x70726f706572746965732d736574), .int .int64 7)]), ((be 4 0x74797065), .str (be 1 0x77))] 3 = true ∧ affects [((be 5 0x7374617473), .map [((be 14 0x70726f706572746965732d736574), .int .int64 1)]), ((be 4 0x74797065), .str (be 1 0x77))] 0 = true ∧ affects [((be 5 0x7374617473), .map [((be 13 0x6e6f6465732d64656c65746564), .int .int64 2), ((be 21 0x72656c6174696f6e73686970732d64656c65746564), .int .int64 1)]), ((be 4 0x74797065), .str (be 1 0x77))] 3 = true := by decide +kernel

end BoltConn_ExecNeo

namespace BoltConn_FailureMessageError

/-- recordings/TestBoltConn_FailureMessageError.json after the first four events -/
def events : List (Bool × Bytes) :=
  [(true, (be 64 0x003cb210d0375448495320495320412042414420515545525920414e442053484f554c442052455455524e2041204641494c555245204d455353414745a00000)),
   (true, (be 6 0x0002b03f0000)),
   (false, (be 187 0x00b7b17fa284636f6465d0254e656f2e436c69656e744572726f722e53746174656d656e742e53796e7461784572726f72876d657373616765d07e496e76616c696420696e707574202754273a206578706563746564203c696e69743e20286c696e6520312c20636f6c756d6e203120286f66667365743a203029290a225448495320495320412042414420515545525920414e442053484f554c442052455455524e2041204641494c555245204d455353414745220a205e0000)),
   (true, (be 6 0x0002b00e0000)),
   (false, (be 6 0x0002b07e0000)),
   (false, (be 7 0x0003b170a00000))]

/-- the calls of the test -/
def calls : List (Call KVs) :=
  [.exec (be 55 0x5448495320495320412042414420515545525920414e442053484f554c442052455455524e2041204641494c555245204d455353414745) [],
   .close]

/-- what they return -/
def results : List Res :=
  [.failure [((be 4 0x636f6465), .str (be 37 0x4e656f2e436c69656e744572726f722e53746174656d656e742e53796e7461784572726f72)), ((be 7 0x6d657373616765), .str (be 126 0x496e76616c696420696e707574202754273a206578706563746564203c696e69743e20286c696e6520312c20636f6c756d6e203120286f66667365743a203029290a225448495320495320412042414420515545525920414e442053484f554c442052455455524e2041204641494c555245204d455353414745220a205e))],
   .done]

/-- The handshake and INIT. -/
theorem opens : opening (be 20 0x6060b01700000001000000000000000000000000) (be 4 0x00000001) (be 40 0x0024b201d013476f6c616e674e656f346a426f6c742f312e30a186736368656d65846e6f6e650000) (be 26 0x0016b170a1867365727665728b4e656f346a2f332e342e360000) = true := by decide +kernel

/-- The session. -/
theorem replays : replay events calls results = true := by decide +kernel

end BoltConn_FailureMessageError

namespace BoltConn_Ignored

/-- recordings/TestBoltConn_Ignored.json after the first four events -/
def events : List (Bool × Bytes) :=
  [(true, (be 38 0x0022b2108c73796e746178206572726f72a283626172c1400199999999999a83666f6f010000)),
   (true, (be 6 0x0002b03f0000)),
   (false, (be 160 0x009cb17fa284636f6465d0254e656f2e436c69656e744572726f722e53746174656d656e742e53796e7461784572726f72876d657373616765d063496e76616c696420696e707574202779273a2065787065637465642027742f54272c2027652f4527206f7220276e2f4e2720286c696e6520312c20636f6c756d6e203220286f66667365743a203129290a2273796e746178206572726f72220a20205e0000)),
   (true, (be 6 0x0002b00e0000)),
   (false, (be 6 0x0002b07e0000)),
   (false, (be 7 0x0003b170a00000)),
   (true, (be 17 0x000db2108952455455524e20313ba00000)),
   (true, (be 6 0x0002b03f0000)),
   (false, (be 42 0x0026b170a2d016726573756c745f617661696c61626c655f616674657201866669656c64739181310000)),
   (false, (be 8 0x0004b17191010000)),
   (false, (be 38 0x0022b170a2d015726573756c745f636f6e73756d65645f616674657200847479706581720000))]

/-- the calls of the test -/
def calls : List (Call KVs) :=
  [.exec (be 12 0x73796e746178206572726f72) [((be 3 0x626172), .float64 0x400199999999999a), ((be 3 0x666f6f), .int .int 1)],
   .queryAll (be 9 0x52455455524e20313b) [],
   .close]

/-- what they return -/
def results : List Res :=
  [.failure [((be 4 0x636f6465), .str (be 37 0x4e656f2e436c69656e744572726f722e53746174656d656e742e53796e7461784572726f72)), ((be 7 0x6d657373616765), .str (be 99 0x496e76616c696420696e707574202779273a2065787065637465642027742f54272c2027652f4527206f7220276e2f4e2720286c696e6520312c20636f6c756d6e203220286f66667365743a203129290a2273796e746178206572726f72220a20205e))],
   .data [[.int .int64 1]] [((be 22 0x726573756c745f617661696c61626c655f6166746572), .int .int64 1), ((be 6 0x6669656c6473), .list [.str (be 1 0x31)])] [((be 21 0x726573756c745f636f6e73756d65645f6166746572), .int .int64 0), ((be 4 0x74797065), .str (be 1 0x72))],
   .done]

/-- The handshake and INIT. -/
theorem opens : opening (be 20 0x6060b01700000001000000000000000000000000) (be 4 0x00000001) (be 40 0x0024b201d013476f6c616e674e656f346a426f6c742f312e30a186736368656d65846e6f6e650000) (be 26 0x0016b170a1867365727665728b4e656f346a2f332e342e360000) = true := by decide +kernel

/-- The session. -/
theorem replays : replay events calls results = true := by decide +kernel

end BoltConn_Ignored

namespace BoltConn_IgnoredPipeline

/-- recordings/TestBoltConn_IgnoredPipeline.json after the first four events -/
def events : List (Bool × Bytes) :=
  [(true, (be 17 0x000db2108952455455524e20313ba00000)),
   (true, (be 6 0x0002b03f0000)),
   (false, (be 42 0x0026b170a2d016726573756c745f617661696c61626c655f616674657201866669656c64739181310000)),
   (false, (be 8 0x0004b17191010000)),
   (false, (be 38 0x0022b170a2d015726573756c745f636f6e73756d65645f616674657201847479706581720000))]

/-- the calls of the test -/
def calls : List (Call KVs) :=
  [.queryAll (be 9 0x52455455524e20313b) [],
   .close]

/-- what they return -/
def results : List Res :=
  [.data [[.int .int64 1]] [((be 22 0x726573756c745f617661696c61626c655f6166746572), .int .int64 1), ((be 6 0x6669656c6473), .list [.str (be 1 0x31)])] [((be 21 0x726573756c745f636f6e73756d65645f6166746572), .int .int64 1), ((be 4 0x74797065), .str (be 1 0x72))],
   .done]

/-- The handshake and INIT. -/
theorem opens : opening (be 20 0x6060b01700000001000000000000000000000000) (be 4 0x00000001) (be 40 0x0024b201d013476f6c616e674e656f346a426f6c742f312e30a186736368656d65846e6f6e650000) (be 26 0x0016b170a1867365727665728b4e656f346a2f332e342e360000) = true := by decide +kernel

/-- `ExecPipeline` with three queries and no parameters fails, and the rest of the session is as recorded. -/
theorem replays : replayAfter (execPipeline tape (closeN tape 1) [(be 12 0x73796e746178206572726f72), (be 12 0x73796e746178206572726f72), (be 12 0x73796e746178206572726f72)] []) events calls results = true := by decide +kernel

end BoltConn_IgnoredPipeline

namespace BoltConn_PipelineExec

/-- recordings/TestBoltConn_PipelineExec.json after the first four events -/
def events : List (Bool × Bytes) :=
  [(true, (be 49 0x002db210d01f4352454154452028663a464f4f207b613a207b617d2c20623a207b627d7d29a281610181628374776f0000)),
   (true, (be 6 0x0002b03f0000)),
   (true, (be 51 0x002fb210d01f4352454154452028623a424152207b613a207b617d2c20623a207b627d7d29a281610281628574687265650000)),
   (true, (be 6 0x0002b03f0000)),
   (true, (be 50 0x002eb210d01f4352454154452028633a42415a207b613a207b617d2c20623a207b627d7d29a2816284666f75728161030000)),
   (true, (be 6 0x0002b03f0000)),
   (false, (be 15 0x000bb170a1866669656c6473900000)),
   (false, (be 66 0x003eb170a2857374617473a38c6c6162656c732d6164646564018d6e6f6465732d63726561746564018e70726f706572746965732d73657402847479706581770000)),
   (false, (be 15 0x000bb170a1866669656c6473900000)),
   (false, (be 66 0x003eb170a2857374617473a38c6c6162656c732d6164646564018d6e6f6465732d63726561746564018e70726f706572746965732d73657402847479706581770000)),
   (false, (be 15 0x000bb170a1866669656c6473900000)),
   (false, (be 66 0x003eb170a2857374617473a38c6c6162656c732d6164646564018d6e6f6465732d63726561746564018e70726f706572746965732d73657402847479706581770000)),
   (true, (be 56 0x0034b210d02f4d415443482028663a464f4f292c2028623a424152292c2028633a42415a292072657475726e20662c20622c20633ba00000)),
   (false, (be 21 0x0011b170a1866669656c6473938166816281630000)),
   (true, (be 6 0x0002b03f0000)),
   (false, (be 70 0x0042b17193b34ec906a49183464f4fa281610181628374776fb34ec906a59183424152a28161028162857468726565b34ec906a6918342415aa2816103816284666f75720000)),
   (false, (be 14 0x000ab170a1847479706581720000)),
   (true, (be 55 0x0033b210d02e4d415443482028663a464f4f292c2028623a424152292c2028633a42415a292044454c45544520662c20622c2063a00000)),
   (true, (be 6 0x0002b03f0000)),
   (false, (be 15 0x000bb170a1866669656c6473900000)),
   (false, (be 36 0x0020b170a2857374617473a18d6e6f6465732d64656c6574656403847479706581770000))]

/-- the calls of the test -/
def calls : List (Call KVs) :=
  [.execPipe [((be 31 0x4352454154452028663a464f4f207b613a207b617d2c20623a207b627d7d29), [((be 1 0x61), .int .int 1), ((be 1 0x62), .str (be 3 0x74776f))]), ((be 31 0x4352454154452028623a424152207b613a207b617d2c20623a207b627d7d29), [((be 1 0x61), .int .int 2), ((be 1 0x62), .str (be 5 0x7468726565))]), ((be 31 0x4352454154452028633a42415a207b613a207b617d2c20623a207b627d7d29), [((be 1 0x62), .str (be 4 0x666f7572)), ((be 1 0x61), .int .int 3)])],
   .prepare (be 47 0x4d415443482028663a464f4f292c2028623a424152292c2028633a42415a292072657475726e20662c20622c20633b),
   .stQuery [],
   .next,
   .closeStmt,
   .exec (be 46 0x4d415443482028663a464f4f292c2028623a424152292c2028633a42415a292044454c45544520662c20622c2063) [],
   .close]

/-- what they return -/
def results : List Res :=
  [.summaries [[((be 5 0x7374617473), .map [((be 12 0x6c6162656c732d6164646564), .int .int64 1), ((be 13 0x6e6f6465732d63726561746564), .int .int64 1), ((be 14 0x70726f706572746965732d736574), .int .int64 2)]), ((be 4 0x74797065), .str (be 1 0x77))], [((be 5 0x7374617473), .map [((be 12 0x6c6162656c732d6164646564), .int .int64 1), ((be 13 0x6e6f6465732d63726561746564), .int .int64 1), ((be 14 0x70726f706572746965732d736574), .int .int64 2)]), ((be 4 0x74797065), .str (be 1 0x77))], [((be 5 0x7374617473), .map [((be 12 0x6c6162656c732d6164646564), .int .int64 1), ((be 13 0x6e6f6465732d63726561746564), .int .int64 1), ((be 14 0x70726f706572746965732d736574), .int .int64 2)]), ((be 4 0x74797065), .str (be 1 0x77))]],
   .done,
   .rows [((be 6 0x6669656c6473), .list [.str (be 1 0x66), .str (be 1 0x62), .str (be 1 0x63)])],
   .row [.node 1700 [(be 3 0x464f4f)] [((be 1 0x61), .int .int64 1), ((be 1 0x62), .str (be 3 0x74776f))], .node 1701 [(be 3 0x424152)] [((be 1 0x61), .int .int64 2), ((be 1 0x62), .str (be 5 0x7468726565))], .node 1702 [(be 3 0x42415a)] [((be 1 0x61), .int .int64 3), ((be 1 0x62), .str (be 4 0x666f7572))]],
   .done,
   .summary [((be 5 0x7374617473), .map [((be 13 0x6e6f6465732d64656c65746564), .int .int64 3)]), ((be 4 0x74797065), .str (be 1 0x77))],
   .done]

/-- The handshake and INIT. -/
theorem opens : opening (be 20 0x6060b01700000001000000000000000000000000) (be 4 0x00000001) (be 40 0x0024b201d013476f6c616e674e656f346a426f6c742f312e30a186736368656d65846e6f6e650000) (be 7 0x0003b170a00000) = true := by decide +kernel

/-- The session. -/
theorem replays : replay events calls results = true := by decide +kernel

/-- `RowsAffected` of the results of `Exec` -/
theorem affected : affects [((be 5 0x7374617473), .map [((be 13 0x6e6f6465732d64656c65746564), .int .int64 3)]), ((be 4 0x74797065), .str (be 1 0x77))] 3 = true ∧ affects [((be 5 0x7374617473), .map [((be 12 0x6c6162656c732d6164646564), .int .int64 1), ((be 13 0x6e6f6465732d63726561746564), .int .int64 1), ((be 14 0x70726f706572746965732d736574), .int .int64 2)]), ((be 4 0x74797065), .str (be 1 0x77))] 1 = true ∧ affects [((be 5 0x7374617473), .map [((be 12 0x6c6162656c732d6164646564), .int .int64 1), ((be 13 0x6e6f6465732d63726561746564), .int .int64 1), ((be 14 0x70726f706572746965732d736574), .int .int64 2)]), ((be 4 0x74797065), .str (be 1 0x77))] 1 = true ∧ affects [((be 5 0x7374617473), .map [((be 12 0x6c6162656c732d6164646564), .int .int64 1), ((be 13 0x6e6f6465732d63726561746564), .int .int64 1), ((be 14 0x70726f706572746965732d736574), .int .int64 2)]), ((be 4 0x74797065), .str (be 1 0x77))] 1 = true := by decide +kernel

end BoltConn_PipelineExec

namespace BoltConn_PipelineQuery

/-- recordings/TestBoltConn_PipelineQuery.json after the first four events -/
def events : List (Bool × Bytes) :=
  [(true, (be 58 0x0036b210d0284352454154452028663a464f4f207b613a207b617d2c20623a207b627d7d292052455455524e2066a281610181628374776f0000)),
   (true, (be 6 0x0002b03f0000)),
   (true, (be 60 0x0038b210d0284352454154452028623a424152207b613a207b617d2c20623a207b627d7d292052455455524e2062a281610281628574687265650000)),
   (true, (be 6 0x0002b03f0000)),
   (true, (be 59 0x0037b210d0284352454154452028633a42415a207b613a207b617d2c20623a207b627d7d292052455455524e2063a2816103816284666f75720000)),
   (true, (be 6 0x0002b03f0000)),
   (false, (be 17 0x000db170a1866669656c64739181660000)),
   (false, (be 27 0x0017b17191b34ec9069d9183464f4fa281610181628374776f0000)),
   (false, (be 67 0x003fb170a2857374617473a38c6c6162656c732d6164646564018d6e6f6465732d63726561746564018e70726f706572746965732d7365740284747970658272770000)),
   (false, (be 17 0x000db170a1866669656c64739181620000)),
   (false, (be 29 0x0019b17191b34ec9069e9183424152a281610281628574687265650000)),
   (false, (be 67 0x003fb170a2857374617473a38c6c6162656c732d6164646564018d6e6f6465732d63726561746564018e70726f706572746965732d7365740284747970658272770000)),
   (false, (be 17 0x000db170a1866669656c64739181630000)),
   (false, (be 28 0x0018b17191b34ec9069f918342415aa2816103816284666f75720000)),
   (false, (be 67 0x003fb170a2857374617473a38c6c6162656c732d6164646564018d6e6f6465732d63726561746564018e70726f706572746965732d7365740284747970658272770000)),
   (true, (be 55 0x0033b210d02e4d415443482028663a464f4f292c2028623a424152292c2028633a42415a292044454c45544520662c20622c2063a00000)),
   (true, (be 6 0x0002b03f0000)),
   (false, (be 15 0x000bb170a1866669656c6473900000)),
   (false, (be 36 0x0020b170a2857374617473a18d6e6f6465732d64656c6574656403847479706581770000))]

/-- the calls of the test -/
def calls : List (Call KVs) :=
  [.queryPipe [((be 40 0x4352454154452028663a464f4f207b613a207b617d2c20623a207b627d7d292052455455524e2066), [((be 1 0x61), .int .int 1), ((be 1 0x62), .str (be 3 0x74776f))]), ((be 40 0x4352454154452028623a424152207b613a207b617d2c20623a207b627d7d292052455455524e2062), [((be 1 0x61), .int .int 2), ((be 1 0x62), .str (be 5 0x7468726565))]), ((be 40 0x4352454154452028633a42415a207b613a207b617d2c20623a207b627d7d292052455455524e2063), [((be 1 0x61), .int .int 3), ((be 1 0x62), .str (be 4 0x666f7572))])],
   .nextPipe,
   .nextPipe,
   .nextPipe,
   .nextPipe,
   .nextPipe,
   .nextPipe,
   .closeRows,
   .exec (be 46 0x4d415443482028663a464f4f292c2028623a424152292c2028633a42415a292044454c45544520662c20622c2063) [],
   .close]

/-- what they return -/
def results : List Res :=
  [.rows [((be 6 0x6669656c6473), .list [.str (be 1 0x66)])],
   .row [.node 1693 [(be 3 0x464f4f)] [((be 1 0x61), .int .int64 1), ((be 1 0x62), .str (be 3 0x74776f))]],
   .next [((be 6 0x6669656c6473), .list [.str (be 1 0x62)])] [((be 6 0x6669656c6473), .list [.str (be 1 0x62)])],
   .row [.node 1694 [(be 3 0x424152)] [((be 1 0x61), .int .int64 2), ((be 1 0x62), .str (be 5 0x7468726565))]],
   .next [((be 6 0x6669656c6473), .list [.str (be 1 0x63)])] [((be 6 0x6669656c6473), .list [.str (be 1 0x63)])],
   .row [.node 1695 [(be 3 0x42415a)] [((be 1 0x61), .int .int64 3), ((be 1 0x62), .str (be 4 0x666f7572))]],
   .pipeEnd,
   .done,
   .summary [((be 5 0x7374617473), .map [((be 13 0x6e6f6465732d64656c65746564), .int .int64 3)]), ((be 4 0x74797065), .str (be 1 0x77))],
   .done]

/-- The handshake and INIT. -/
theorem opens : opening (be 20 0x6060b01700000001000000000000000000000000) (be 4 0x00000001) (be 40 0x0024b201d013476f6c616e674e656f346a426f6c742f312e30a186736368656d65846e6f6e650000) (be 7 0x0003b170a00000) = true := by decide +kernel

/-- The session. -/
theorem replays : replay events calls results = true := by decide +kernel

/-- `RowsAffected` of the results of `Exec` -/
theorem affected : affects [((be 5 0x7374617473), .map [((be 13 0x6e6f6465732d64656c65746564), .int .int64 3)]), ((be 4 0x74797065), .str (be 1 0x77))] 3 = true := by decide +kernel

end BoltConn_PipelineQuery

namespace BoltConn_SelectAll

/-- recordings/TestBoltConn_SelectAll.json after the first four events -/
def events : List (Bool × Bytes) :=
  [(true, (be 48 0x002cb210d0274352454154452028663a4e4f4445207b613a20317d292c2028623a4e4f4445207b613a20327d29a00000)),
   (true, (be 6 0x0002b03f0000)),
   (false, (be 40 0x0024b170a2d016726573756c745f617661696c61626c655f616674657255866669656c6473900000)),
   (false, (be 90 0x0056b170a3857374617473a38c6c6162656c732d6164646564028d6e6f6465732d63726561746564028e70726f706572746965732d73657402d015726573756c745f636f6e73756d65645f616674657200847479706581770000)),
   (true, (be 47 0x002bb210d0264d4154434820286e3a4e4f4445292052455455524e206e2e61204f52444552204259206e2e61a00000)),
   (true, (be 6 0x0002b03f0000)),
   (false, (be 44 0x0028b170a2d016726573756c745f617661696c61626c655f61667465726e866669656c647391836e2e610000)),
   (false, (be 8 0x0004b17191010000)),
   (false, (be 8 0x0004b17191020000)),
   (false, (be 38 0x0022b170a2d015726573756c745f636f6e73756d65645f616674657200847479706581720000)),
   (true, (be 32 0x001cb210d0174d4154434820286e3a4e4f4445292044454c455445206ea00000)),
   (true, (be 6 0x0002b03f0000)),
   (false, (be 40 0x0024b170a2d016726573756c745f617661696c61626c655f616674657211866669656c6473900000)),
   (false, (be 60 0x0038b170a3857374617473a18d6e6f6465732d64656c6574656402d015726573756c745f636f6e73756d65645f616674657200847479706581770000))]

/-- the calls of the test -/
def calls : List (Call KVs) :=
  [.exec (be 39 0x4352454154452028663a4e4f4445207b613a20317d292c2028623a4e4f4445207b613a20327d29) [],
   .queryAll (be 38 0x4d4154434820286e3a4e4f4445292052455455524e206e2e61204f52444552204259206e2e61) [],
   .exec (be 23 0x4d4154434820286e3a4e4f4445292044454c455445206e) [],
   .close]

/-- what they return -/
def results : List Res :=
  [.summary [((be 5 0x7374617473), .map [((be 12 0x6c6162656c732d6164646564), .int .int64 2), ((be 13 0x6e6f6465732d63726561746564), .int .int64 2), ((be 14 0x70726f706572746965732d736574), .int .int64 2)]), ((be 21 0x726573756c745f636f6e73756d65645f6166746572), .int .int64 0), ((be 4 0x74797065), .str (be 1 0x77))],
   .data [[.int .int64 1], [.int .int64 2]] [((be 22 0x726573756c745f617661696c61626c655f6166746572), .int .int64 110), ((be 6 0x6669656c6473), .list [.str (be 3 0x6e2e61)])] [((be 21 0x726573756c745f636f6e73756d65645f6166746572), .int .int64 0), ((be 4 0x74797065), .str (be 1 0x72))],
   .summary [((be 5 0x7374617473), .map [((be 13 0x6e6f6465732d64656c65746564), .int .int64 2)]), ((be 21 0x726573756c745f636f6e73756d65645f6166746572), .int .int64 0), ((be 4 0x74797065), .str (be 1 0x77))],
   .done]

/-- The handshake and INIT. -/
theorem opens : opening (be 20 0x6060b01700000001000000000000000000000000) (be 4 0x00000001) (be 40 0x0024b201d013476f6c616e674e656f346a426f6c742f312e30a186736368656d65846e6f6e650000) (be 26 0x0016b170a1867365727665728b4e656f346a2f332e342e360000) = true := by decide +kernel

/-- The session. -/
theorem replays : replay events calls results = true := by decide +kernel

/-- `RowsAffected` of the results of `Exec` -/
theorem affected : affects [((be 5 0x7374617473), .map [((be 12 0x6c6162656c732d6164646564), .int .int64 2), ((be 13 0x6e6f6465732d63726561746564), .int .int64 2), ((be 14 0x70726f706572746965732d736574), .int .int64 2)]), ((be 21 0x726573756c745f636f6e73756d65645f6166746572), .int .int64 0), ((be 4 0x74797065), .str (be 1 0x77))] 2 = true ∧ affects [((be 5 0x7374617473), .map [((be 13 0x6e6f6465732d64656c65746564), .int .int64 2)]), ((be 21 0x726573756c745f636f6e73756d65645f6166746572), .int .int64 0), ((be 4 0x74797065), .str (be 1 0x77))] 2 = true := by decide +kernel

end BoltConn_SelectAll

namespace BoltConn_SelectOne

/-- recordings/TestBoltConn_SelectOne.json after the first four events -/
def events : List (Bool × Bytes) :=
  [(true, (be 17 0x000db2108952455455524e20313ba00000)),
   (true, (be 6 0x0002b03f0000)),
   (false, (be 42 0x0026b170a2d016726573756c745f617661696c61626c655f616674657211866669656c64739181310000)),
   (false, (be 8 0x0004b17191010000)),
   (false, (be 38 0x0022b170a2d015726573756c745f636f6e73756d65645f616674657200847479706581720000))]

/-- the calls of the test -/
def calls : List (Call KVs) :=
  [.query (be 9 0x52455455524e20313b) [],
   .next,
   .next,
   .close]

/-- what they return -/
def results : List Res :=
  [.rows [((be 22 0x726573756c745f617661696c61626c655f6166746572), .int .int64 17), ((be 6 0x6669656c6473), .list [.str (be 1 0x31)])],
   .row [.int .int64 1],
   .eof [((be 21 0x726573756c745f636f6e73756d65645f6166746572), .int .int64 0), ((be 4 0x74797065), .str (be 1 0x72))],
   .done]

/-- The handshake and INIT. -/
theorem opens : opening (be 20 0x6060b01700000001000000000000000000000000) (be 4 0x00000001) (be 40 0x0024b201d013476f6c616e674e656f346a426f6c742f312e30a186736368656d65846e6f6e650000) (be 26 0x0016b170a1867365727665728b4e656f346a2f332e342e360000) = true := by decide +kernel

/-- The session. -/
theorem replays : replay events calls results = true := by decide +kernel

end BoltConn_SelectOne

namespace BoltStmt_CreateArgs

/-- recordings/TestBoltStmt_CreateArgs.json after the first four events -/
def events : List (Bool × Bytes) :=
  [(true, (be 143 0x008bb210d0634352454154452028663a464f4f207b613a207b617d2c20623a207b627d2c20633a207b637d2c20643a207b647d2c20653a207b657d2c20663a207b667d7d292052455455524e20662e612c20662e622c20662e632c20662e642c20662e652c20662e66a68166c08161018162c140e0b74afbbd7b20816386737472696e678164930102038165c30000)),
   (false, (be 64 0x003cb170a2d016726573756c745f617661696c61626c655f616674657216866669656c64739683662e6183662e6283662e6383662e6483662e6583662e660000)),
   (true, (be 6 0x0002b03f0000)),
   (false, (be 30 0x001ab1719601c140e0b74afbbd7b2086737472696e6793010203c3c00000)),
   (false, (be 91 0x0057b170a3857374617473a38c6c6162656c732d6164646564018d6e6f6465732d63726561746564018e70726f706572746965732d73657405d015726573756c745f636f6e73756d65645f61667465720084747970658272770000)),
   (true, (be 31 0x001bb210d0164d415443482028663a464f4f292044454c4554452066a00000)),
   (true, (be 6 0x0002b03f0000)),
   (false, (be 40 0x0024b170a2d016726573756c745f617661696c61626c655f61667465720a866669656c6473900000)),
   (false, (be 60 0x0038b170a3857374617473a18d6e6f6465732d64656c6574656405d015726573756c745f636f6e73756d65645f616674657200847479706581770000))]

/-- the calls of the test -/
def calls : List (Call KVs) :=
  [.prepare (be 99 0x4352454154452028663a464f4f207b613a207b617d2c20623a207b627d2c20633a207b637d2c20643a207b647d2c20653a207b657d2c20663a207b667d7d292052455455524e20662e612c20662e622c20662e632c20662e642c20662e652c20662e66),
   .stQuery [((be 1 0x66), .nil), ((be 1 0x61), .int .int 1), ((be 1 0x62), .float64 0x40e0b74afbbd7b20), ((be 1 0x63), .str (be 6 0x737472696e67)), ((be 1 0x64), .list [.int .int 1, .int .int 2, .int .int 3]), ((be 1 0x65), .bool true)],
   .next,
   .closeStmt,
   .prepare (be 22 0x4d415443482028663a464f4f292044454c4554452066),
   .stExec [],
   .close]

/-- what they return -/
def results : List Res :=
  [.done,
   .rows [((be 22 0x726573756c745f617661696c61626c655f6166746572), .int .int64 22), ((be 6 0x6669656c6473), .list [.str (be 3 0x662e61), .str (be 3 0x662e62), .str (be 3 0x662e63), .str (be 3 0x662e64), .str (be 3 0x662e65), .str (be 3 0x662e66)])],
   .row [.int .int64 1, .float64 0x40e0b74afbbd7b20, .str (be 6 0x737472696e67), .list [.int .int64 1, .int .int64 2, .int .int64 3], .bool true, .nil],
   .done,
   .done,
   .summary [((be 5 0x7374617473), .map [((be 13 0x6e6f6465732d64656c65746564), .int .int64 5)]), ((be 21 0x726573756c745f636f6e73756d65645f6166746572), .int .int64 0), ((be 4 0x74797065), .str (be 1 0x77))],
   .done]

/-- The handshake and INIT. -/
theorem opens : opening (be 20 0x6060b01700000001000000000000000000000000) (be 4 0x00000001) (be 40 0x0024b201d013476f6c616e674e656f346a426f6c742f312e30a186736368656d65846e6f6e650000) (be 26 0x0016b170a1867365727665728b4e656f346a2f332e342e360000) = true := by decide +kernel

/-- The session. -/
theorem replays : replay events calls results = true := by decide +kernel

/-- `RowsAffected` of the results of `Exec` -/
theorem affected : affects [((be 5 0x7374617473), .map [((be 13 0x6e6f6465732d64656c65746564), .int .int64 5)]), ((be 21 0x726573756c745f636f6e73756d65645f6166746572), .int .int64 0), ((be 4 0x74797065), .str (be 1 0x77))] 5 = true := by decide +kernel

end BoltStmt_CreateArgs

namespace BoltStmt_Discard

/-- recordings/TestBoltStmt_Discard.json after the first four events -/
def events : List (Bool × Bytes) :=
  [(true, (be 62 0x003ab210d0354352454154452028663a464f4f207b613a202231227d292c2028623a464f4f207b613a202232227d292052455455524e20662c2062a00000)),
   (false, (be 44 0x0028b170a2d016726573756c745f617661696c61626c655f616674657211866669656c647392816681620000)),
   (true, (be 6 0x0002b02f0000)),
   (false, (be 91 0x0057b170a3857374617473a38c6c6162656c732d6164646564028d6e6f6465732d63726561746564028e70726f706572746965732d73657402d015726573756c745f636f6e73756d65645f61667465720084747970658272770000)),
   (true, (be 46 0x002ab210d0254d415443482028663a464f4f292052455455524e20662e61204f5244455220425920662e61a00000)),
   (false, (be 44 0x0028b170a2d016726573756c745f617661696c61626c655f616674657219866669656c64739183662e610000)),
   (true, (be 6 0x0002b03f0000)),
   (false, (be 9 0x0005b1719181310000)),
   (false, (be 9 0x0005b1719181320000)),
   (false, (be 38 0x0022b170a2d015726573756c745f636f6e73756d65645f616674657200847479706581720000)),
   (true, (be 46 0x002ab210d0254d415443482028663a464f4f292052455455524e20662e61204f5244455220425920662e61a00000)),
   (false, (be 44 0x0028b170a2d016726573756c745f617661696c61626c655f616674657202866669656c64739183662e610000)),
   (true, (be 6 0x0002b03f0000)),
   (false, (be 9 0x0005b1719181310000)),
   (false, (be 9 0x0005b1719181320000)),
   (false, (be 38 0x0022b170a2d015726573756c745f636f6e73756d65645f616674657201847479706581720000)),
   (true, (be 31 0x001bb210d0164d415443482028663a464f4f292044454c4554452066a00000)),
   (true, (be 6 0x0002b03f0000)),
   (false, (be 40 0x0024b170a2d016726573756c745f617661696c61626c655f616674657201866669656c6473900000)),
   (false, (be 60 0x0038b170a3857374617473a18d6e6f6465732d64656c6574656402d015726573756c745f636f6e73756d65645f616674657200847479706581770000))]

/-- the calls of the test -/
def calls : List (Call KVs) :=
  [.prepare (be 53 0x4352454154452028663a464f4f207b613a202231227d292c2028623a464f4f207b613a202232227d292052455455524e20662c2062),
   .stQuery [],
   .closeStmt,
   .prepare (be 37 0x4d415443482028663a464f4f292052455455524e20662e61204f5244455220425920662e61),
   .stQuery [],
   .next,
   .closeStmt,
   .prepare (be 37 0x4d415443482028663a464f4f292052455455524e20662e61204f5244455220425920662e61),
   .stQuery [],
   .next,
   .next,
   .closeStmt,
   .prepare (be 22 0x4d415443482028663a464f4f292044454c4554452066),
   .stExec [],
   .close]

/-- what they return -/
def results : List Res :=
  [.done,
   .rows [((be 22 0x726573756c745f617661696c61626c655f6166746572), .int .int64 17), ((be 6 0x6669656c6473), .list [.str (be 1 0x66), .str (be 1 0x62)])],
   .done,
   .done,
   .rows [((be 22 0x726573756c745f617661696c61626c655f6166746572), .int .int64 25), ((be 6 0x6669656c6473), .list [.str (be 3 0x662e61)])],
   .row [.str (be 1 0x31)],
   .done,
   .done,
   .rows [((be 22 0x726573756c745f617661696c61626c655f6166746572), .int .int64 2), ((be 6 0x6669656c6473), .list [.str (be 3 0x662e61)])],
   .row [.str (be 1 0x31)],
   .row [.str (be 1 0x32)],
   .done,
   .done,
   .summary [((be 5 0x7374617473), .map [((be 13 0x6e6f6465732d64656c65746564), .int .int64 2)]), ((be 21 0x726573756c745f636f6e73756d65645f6166746572), .int .int64 0), ((be 4 0x74797065), .str (be 1 0x77))],
   .done]

/-- The handshake and INIT. -/
theorem opens : opening (be 20 0x6060b01700000001000000000000000000000000) (be 4 0x00000001) (be 40 0x0024b201d013476f6c616e674e656f346a426f6c742f312e30a186736368656d65846e6f6e650000) (be 26 0x0016b170a1867365727665728b4e656f346a2f332e342e360000) = true := by decide +kernel

/-- The session. -/
theorem replays : replay events calls results = true := by decide +kernel

/-- `RowsAffected` of the results of `Exec` -/
theorem affected : affects [((be 5 0x7374617473), .map [((be 13 0x6e6f6465732d64656c65746564), .int .int64 2)]), ((be 21 0x726573756c745f636f6e73756d65645f6166746572), .int .int64 0), ((be 4 0x74797065), .str (be 1 0x77))] 2 = true := by decide +kernel

end BoltStmt_Discard

namespace BoltStmt_ExecNeo

/-- recordings/TestBoltStmt_ExecNeo.json after the first four events -/
def events : List (Bool × Bytes) :=
  [(true, (be 143 0x008bb210d0604352454154452028663a464f4f207b613a207b617d2c20623a207b627d2c20633a207b637d2c20643a207b647d2c20653a207b657d2c20663a207b667d2c20673a207b677d2c20683a207b687d7d292d5b623a4241525d2d3e28633a42415a29a88162018163c38165930102038166c1400b3333333333338167ff8168c28164c0816183666f6f0000)),
   (true, (be 6 0x0002b03f0000)),
   (false, (be 40 0x0024b170a2d016726573756c745f617661696c61626c655f61667465722c866669656c6473900000)),
   (false, (be 114 0x006eb170a3857374617473a48c6c6162656c732d616464656402d01572656c6174696f6e73686970732d63726561746564018d6e6f6465732d63726561746564028e70726f706572746965732d73657407d015726573756c745f636f6e73756d65645f616674657200847479706581770000)),
   (true, (be 39 0x0023b210d01e4d415443482028663a464f4f292053455420662e61203d2022626172223ba00000)),
   (true, (be 6 0x0002b03f0000)),
   (false, (be 40 0x0024b170a2d016726573756c745f617661696c61626c655f61667465722b866669656c6473900000)),
   (false, (be 61 0x0039b170a3857374617473a18e70726f706572746965732d73657405d015726573756c745f636f6e73756d65645f616674657200847479706581770000)),
   (true, (be 54 0x0032b210d02d4d415443482028663a464f4f292d5b623a4241525d2d3e28633a42415a292044454c45544520662c20622c2063a00000)),
   (true, (be 6 0x0002b03f0000)),
   (false, (be 40 0x0024b170a2d016726573756c745f617661696c61626c655f616674657214866669656c6473900000)),
   (false, (be 84 0x0050b170a3857374617473a28d6e6f6465732d64656c6574656402d01572656c6174696f6e73686970732d64656c6574656401d015726573756c745f636f6e73756d65645f616674657200847479706581770000))]

/-- the calls of the test -/
def calls : List (Call KVs) :=
  [.prepare (be 96 0x4352454154452028663a464f4f207b613a207b617d2c20623a207b627d2c20633a207b637d2c20643a207b647d2c20653a207b657d2c20663a207b667d2c20673a207b677d2c20683a207b687d7d292d5b623a4241525d2d3e28633a42415a29),
   .stExec [((be 1 0x62), .int .int 1), ((be 1 0x63), .bool true), ((be 1 0x65), .list [.int .int 1, .int .int 2, .int .int 3]), ((be 1 0x66), .float64 0x400b333333333333), ((be 1 0x67), .int .int (-1)), ((be 1 0x68), .bool false), ((be 1 0x64), .nil), ((be 1 0x61), .str (be 3 0x666f6f))],
   .closeStmt,
   .prepare (be 30 0x4d415443482028663a464f4f292053455420662e61203d2022626172223b),
   .stExec [],
   .closeStmt,
   .prepare (be 45 0x4d415443482028663a464f4f292d5b623a4241525d2d3e28633a42415a292044454c45544520662c20622c2063),
   .stExec [],
   .close]

/-- what they return -/
def results : List Res :=
  [.done,
   .summary [((be 5 0x7374617473), .map [((be 12 0x6c6162656c732d6164646564), .int .int64 2), ((be 21 0x72656c6174696f6e73686970732d63726561746564), .int .int64 1), ((be 13 0x6e6f6465732d63726561746564), .int .int64 2), ((be 14 0x70726f706572746965732d736574), .int .int64 7)]), ((be 21 0x726573756c745f636f6e73756d65645f6166746572), .int .int64 0), ((be 4 0x74797065), .str (be 1 0x77))],
   .done,
   .done,
   .summary [((be 5 0x7374617473), .map [((be 14 0x70726f706572746965732d736574), .int .int64 5)]), ((be 21 0x726573756c745f636f6e73756d65645f6166746572), .int .int64 0), ((be 4 0x74797065), .str (be 1 0x77))],
   .done,
   .done,
   .summary [((be 5 0x7374617473), .map [((be 13 0x6e6f6465732d64656c65746564), .int .int64 2), ((be 21 0x72656c6174696f6e73686970732d64656c65746564), .int .int64 1)]), ((be 21 0x726573756c745f636f6e73756d65645f6166746572), .int .int64 0), ((be 4 0x74797065), .str (be 1 0x77))],
   .done]

/-- The handshake and INIT. -/
theorem opens : opening (be 20 0x6060b01700000001000000000000000000000000) (be 4 0x00000001) (be 40 0x0024b201d013476f6c616e674e656f346a426f6c742f312e30a186736368656d65846e6f6e650000) (be 26 0x0016b170a1867365727665728b4e656f346a2f332e342e360000) = true := by decide +kernel

/-- The session. -/
theorem replays : replay events calls results = true := by decide +kernel

/-- `RowsAffected` of the results of `Exec` -/
theorem affected : affects [((be 5 0x7374617473), .map [((be 12 0x6c6162656c732d6164646564), .int .int64 2), ((be 21 0x72656c6174696f6e73686970732d63726561746564), .int .int64 1), ((be 13 0x6e6f6465732d63726561746564), .int .int64 2), ((be 14 0x70726f706572746965732d736574), .int .int64 7)]), ((be 21 0x726573756c745f636f6e73756d65645f6166746572), .int .int64 0), ((be 4 0x74797065), .str (be 1 0x77))] 3 = true ∧ affects [((be 5 0x7374617473), .map [((be 14 0x70726f706572746965732d736574), .int .int64 5)]), ((be 21 0x726573756c745f636f6e73756d65645f6166746572), .int .int64 0), ((be 4 0x74797065), .str (be 1 0x77))] 0 = true ∧ affects [((be 5 0x7374617473), .map [((be 13 0x6e6f6465732d64656c65746564), .int .int64 2), ((be 21 0x72656c6174696f6e73686970732d64656c65746564), .int .int64 1)]), ((be 21 0x726573756c745f636f6e73756d65645f6166746572), .int .int64 0), ((be 4 0x74797065), .str (be 1 0x77))] 3 = true := by decide +kernel

end BoltStmt_ExecNeo

namespace BoltStmt_Failure

/-- recordings/TestBoltStmt_Failure.json after the first four events -/
def events : List (Bool × Bytes) :=
  [(true, (be 62 0x003ab210d0354352454154452028663a464f4f207b613a202231227d292c2028623a464f4f207b613a202232227d292052455455524e20662c2062a00000)),
   (false, (be 44 0x0028b170a2d016726573756c745f617661696c61626c655f616674657202866669656c647392816681620000)),
   (true, (be 6 0x0002b02f0000)),
   (false, (be 91 0x0057b170a3857374617473a38c6c6162656c732d6164646564028d6e6f6465732d63726561746564028e70726f706572746965732d73657402d015726573756c745f636f6e73756d65645f61667465720084747970658272770000)),
   (true, (be 33 0x001db210d0185468697320697320616e20696e76616c6964207175657279a00000)),
   (false, (be 156 0x0098b17fa284636f6465d0254e656f2e436c69656e744572726f722e53746174656d656e742e53796e7461784572726f72876d657373616765d05f496e76616c696420696e707574202754273a206578706563746564203c696e69743e20286c696e6520312c20636f6c756d6e203120286f66667365743a203029290a225468697320697320616e20696e76616c6964207175657279220a205e0000)),
   (true, (be 6 0x0002b00e0000)),
   (false, (be 7 0x0003b170a00000)),
   (true, (be 46 0x002ab210d0254d415443482028663a464f4f292052455455524e20662e61204f5244455220425920662e61a00000)),
   (false, (be 44 0x0028b170a2d016726573756c745f617661696c61626c655f616674657203866669656c64739183662e610000)),
   (true, (be 6 0x0002b03f0000)),
   (false, (be 9 0x0005b1719181310000)),
   (false, (be 9 0x0005b1719181320000)),
   (false, (be 38 0x0022b170a2d015726573756c745f636f6e73756d65645f616674657201847479706581720000)),
   (true, (be 46 0x002ab210d0254d415443482028663a464f4f292052455455524e20662e61204f5244455220425920662e61a00000)),
   (false, (be 44 0x0028b170a2d016726573756c745f617661696c61626c655f616674657201866669656c64739183662e610000)),
   (true, (be 6 0x0002b03f0000)),
   (false, (be 9 0x0005b1719181310000)),
   (false, (be 9 0x0005b1719181320000)),
   (false, (be 38 0x0022b170a2d015726573756c745f636f6e73756d65645f616674657200847479706581720000)),
   (true, (be 31 0x001bb210d0164d415443482028663a464f4f292044454c4554452066a00000)),
   (true, (be 6 0x0002b03f0000)),
   (false, (be 40 0x0024b170a2d016726573756c745f617661696c61626c655f616674657201866669656c6473900000)),
   (false, (be 60 0x0038b170a3857374617473a18d6e6f6465732d64656c6574656402d015726573756c745f636f6e73756d65645f616674657200847479706581770000))]

/-- the calls of the test -/
def calls : List (Call KVs) :=
  [.prepare (be 53 0x4352454154452028663a464f4f207b613a202231227d292c2028623a464f4f207b613a202232227d292052455455524e20662c2062),
   .stQuery [],
   .closeStmt,
   .prepare (be 24 0x5468697320697320616e20696e76616c6964207175657279),
   .stQuery [],
   .closeStmt,
   .prepare (be 37 0x4d415443482028663a464f4f292052455455524e20662e61204f5244455220425920662e61),
   .stQuery [],
   .next,
   .closeStmt,
   .prepare (be 37 0x4d415443482028663a464f4f292052455455524e20662e61204f5244455220425920662e61),
   .stQuery [],
   .next,
   .next,
   .closeStmt,
   .prepare (be 22 0x4d415443482028663a464f4f292044454c4554452066),
   .stExec [],
   .close]

/-- what they return -/
def results : List Res :=
  [.done,
   .rows [((be 22 0x726573756c745f617661696c61626c655f6166746572), .int .int64 2), ((be 6 0x6669656c6473), .list [.str (be 1 0x66), .str (be 1 0x62)])],
   .done,
   .done,
   .failure [((be 4 0x636f6465), .str (be 37 0x4e656f2e436c69656e744572726f722e53746174656d656e742e53796e7461784572726f72)), ((be 7 0x6d657373616765), .str (be 95 0x496e76616c696420696e707574202754273a206578706563746564203c696e69743e20286c696e6520312c20636f6c756d6e203120286f66667365743a203029290a225468697320697320616e20696e76616c6964207175657279220a205e))],
   .done,
   .done,
   .rows [((be 22 0x726573756c745f617661696c61626c655f6166746572), .int .int64 3), ((be 6 0x6669656c6473), .list [.str (be 3 0x662e61)])],
   .row [.str (be 1 0x31)],
   .done,
   .done,
   .rows [((be 22 0x726573756c745f617661696c61626c655f6166746572), .int .int64 1), ((be 6 0x6669656c6473), .list [.str (be 3 0x662e61)])],
   .row [.str (be 1 0x31)],
   .row [.str (be 1 0x32)],
   .done,
   .done,
   .summary [((be 5 0x7374617473), .map [((be 13 0x6e6f6465732d64656c65746564), .int .int64 2)]), ((be 21 0x726573756c745f636f6e73756d65645f6166746572), .int .int64 0), ((be 4 0x74797065), .str (be 1 0x77))],
   .done]

/-- The handshake and INIT. -/
theorem opens : opening (be 20 0x6060b01700000001000000000000000000000000) (be 4 0x00000001) (be 40 0x0024b201d013476f6c616e674e656f346a426f6c742f312e30a186736368656d65846e6f6e650000) (be 26 0x0016b170a1867365727665728b4e656f346a2f332e342e360000) = true := by decide +kernel

/-- The session. -/
theorem replays : replay events calls results = true := by decide +kernel

/-- `RowsAffected` of the results of `Exec` -/
theorem affected : affects [((be 5 0x7374617473), .map [((be 13 0x6e6f6465732d64656c65746564), .int .int64 2)]), ((be 21 0x726573756c745f636f6e73756d65645f6166746572), .int .int64 0), ((be 4 0x74797065), .str (be 1 0x77))] 2 = true := by decide +kernel

end BoltStmt_Failure

namespace BoltStmt_InvalidArgs

/-- recordings/TestBoltStmt_InvalidArgs.json after the first four events -/
def events : List (Bool × Bytes) :=
  [(true, (be 119 0x0073b210d0484352454154452028663a464f4f207b613a207b617d2c20623a207b627d2c20633a207b637d2c20643a207b647d2c20653a207b657d2c20663a207b667d7d292052455455524e2066a68166c08161018162c140e0b74afbbd7b20816386737472696e6781649501813203c3c08165c30000)),
   (false, (be 227 0x00dfb17fa284636f6465d0234e656f2e436c69656e744572726f722e53746174656d656e742e547970654572726f72876d657373616765d100a74e656f346a206f6e6c7920737570706f727473206120737562736574206f662043797068657220747970657320666f722073746f726167652061732073696e676c65746f6e206f722061727261792070726f706572746965732e20506c6561736520726566657220746f2073656374696f6e206379706865722f73796e7461782f76616c756573206f6620746865206d616e75616c20666f72206d6f72652064657461696c732e0000)),
   (true, (be 6 0x0002b00e0000)),
   (false, (be 7 0x0003b170a00000))]

/-- the calls of the test -/
def calls : List (Call KVs) :=
  [.prepare (be 72 0x4352454154452028663a464f4f207b613a207b617d2c20623a207b627d2c20633a207b637d2c20643a207b647d2c20653a207b657d2c20663a207b667d7d292052455455524e2066),
   .stQuery [((be 1 0x66), .nil), ((be 1 0x61), .int .int 1), ((be 1 0x62), .float64 0x40e0b74afbbd7b20), ((be 1 0x63), .str (be 6 0x737472696e67)), ((be 1 0x64), .list [.int .int 1, .str (be 1 0x32), .int .int 3, .bool true, .nil]), ((be 1 0x65), .bool true)],
   .close]

/-- what they return -/
def results : List Res :=
  [.done,
   .failure [((be 4 0x636f6465), .str (be 35 0x4e656f2e436c69656e744572726f722e53746174656d656e742e547970654572726f72)), ((be 7 0x6d657373616765), .str (be 167 0x4e656f346a206f6e6c7920737570706f727473206120737562736574206f662043797068657220747970657320666f722073746f726167652061732073696e676c65746f6e206f722061727261792070726f706572746965732e20506c6561736520726566657220746f2073656374696f6e206379706865722f73796e7461782f76616c756573206f6620746865206d616e75616c20666f72206d6f72652064657461696c732e))],
   .done]

/-- The handshake and INIT. -/
theorem opens : opening (be 20 0x6060b01700000001000000000000000000000000) (be 4 0x00000001) (be 40 0x0024b201d013476f6c616e674e656f346a426f6c742f312e30a186736368656d65846e6f6e650000) (be 26 0x0016b170a1867365727665728b4e656f346a2f332e342e360000) = true := by decide +kernel

/-- The session. -/
theorem replays : replay events calls results = true := by decide +kernel

end BoltStmt_InvalidArgs

namespace BoltStmt_ManyChunks

/-- recordings/TestBoltStmt_ManyChunks.json after the first four events -/
def events : List (Bool × Bytes) :=
  [(true, (be 106 0x000ab210d05d52455455524e000a20223120322033203420004e3520362037203820392031302220617320612c20202231203220332034203520362037203820392031302220617320622c20223120322033203420352036203720382039203130222061732063a00000)),
   (false, (be 46 0x002ab170a2d016726573756c745f617661696c61626c655f616674657209866669656c6473938161816281630000)),
   (true, (be 6 0x0002b03f0000)),
   (false, (be 73 0x0045b17193d0143120322033203420352036203720382039203130d0143120322033203420352036203720382039203130d01431203220332034203520362037203820392031300000)),
   (false, (be 38 0x0022b170a2d015726573756c745f636f6e73756d65645f616674657200847479706581720000))]

/-- the calls of the test -/
def calls : List (Call KVs) :=
  [.setChunkSize 10,
   .prepare (be 93 0x52455455524e202231203220332034203520362037203820392031302220617320612c20202231203220332034203520362037203820392031302220617320622c20223120322033203420352036203720382039203130222061732063),
   .stQuery [],
   .next,
   .next,
   .close]

/-- what they return -/
def results : List Res :=
  [.done,
   .done,
   .rows [((be 22 0x726573756c745f617661696c61626c655f6166746572), .int .int64 9), ((be 6 0x6669656c6473), .list [.str (be 1 0x61), .str (be 1 0x62), .str (be 1 0x63)])],
   .row [.str (be 20 0x3120322033203420352036203720382039203130), .str (be 20 0x3120322033203420352036203720382039203130), .str (be 20 0x3120322033203420352036203720382039203130)],
   .eof [((be 21 0x726573756c745f636f6e73756d65645f6166746572), .int .int64 0), ((be 4 0x74797065), .str (be 1 0x72))],
   .done]

/-- The handshake and INIT. -/
theorem opens : opening (be 20 0x6060b01700000001000000000000000000000000) (be 4 0x00000001) (be 40 0x0024b201d013476f6c616e674e656f346a426f6c742f312e30a186736368656d65846e6f6e650000) (be 26 0x0016b170a1867365727665728b4e656f346a2f332e342e360000) = true := by decide +kernel

/-- The session. -/
theorem replays : replay events calls results = true := by decide +kernel

end BoltStmt_ManyChunks

namespace BoltStmt_MixedObjects

/-- recordings/TestBoltStmt_MixedObjects.json after the first four events -/
def events : List (Bool × Bytes) :=
  [(true, (be 87 0x0053b210d04e4352454154452028663a464f4f207b613a202231227d292d5b623a544f5d2d3e28633a424152293c2d5b643a46524f4d5d2d28653a42415a292052455455524e20662c20622c20632c20642c2065a00000)),
   (false, (be 50 0x002eb170a2d016726573756c745f617661696c61626c655f616674657216866669656c647395816681628163816481650000)),
   (true, (be 6 0x0002b03f0000)),
   (false, (be 72 0x0044b17195b34ec900b69183464f4fa181618131b552c900adc900b6c9008482544fa0b34ec900849183424152a0b552c900c523c900848446524f4da0b34e23918342415aa00000)),
   (false, (be 115 0x006fb170a3857374617473a48c6c6162656c732d616464656403d01572656c6174696f6e73686970732d63726561746564028d6e6f6465732d63726561746564038e70726f706572746965732d73657401d015726573756c745f636f6e73756d65645f61667465720184747970658272770000)),
   (true, (be 77 0x0049b210d0444d415443482028663a464f4f292d5b623a544f5d2d3e28633a424152293c2d5b643a46524f4d5d2d28653a42415a292044454c45544520662c20622c20632c20642c2065a00000)),
   (true, (be 6 0x0002b03f0000)),
   (false, (be 40 0x0024b170a2d016726573756c745f617661696c61626c655f616674657258866669656c6473900000)),
   (false, (be 84 0x0050b170a3857374617473a28d6e6f6465732d64656c6574656403d01572656c6174696f6e73686970732d64656c6574656402d015726573756c745f636f6e73756d65645f616674657200847479706581770000))]

/-- the calls of the test -/
def calls : List (Call KVs) :=
  [.prepare (be 78 0x4352454154452028663a464f4f207b613a202231227d292d5b623a544f5d2d3e28633a424152293c2d5b643a46524f4d5d2d28653a42415a292052455455524e20662c20622c20632c20642c2065),
   .stQuery [],
   .next,
   .closeStmt,
   .prepare (be 68 0x4d415443482028663a464f4f292d5b623a544f5d2d3e28633a424152293c2d5b643a46524f4d5d2d28653a42415a292044454c45544520662c20622c20632c20642c2065),
   .stExec [],
   .close]

/-- what they return -/
def results : List Res :=
  [.done,
   .rows [((be 22 0x726573756c745f617661696c61626c655f6166746572), .int .int64 22), ((be 6 0x6669656c6473), .list [.str (be 1 0x66), .str (be 1 0x62), .str (be 1 0x63), .str (be 1 0x64), .str (be 1 0x65)])],
   .row [.node 182 [(be 3 0x464f4f)] [((be 1 0x61), .str (be 1 0x31))], .rel 173 182 132 (be 2 0x544f) [], .node 132 [(be 3 0x424152)] [], .rel 197 35 132 (be 4 0x46524f4d) [], .node 35 [(be 3 0x42415a)] []],
   .done,
   .done,
   .summary [((be 5 0x7374617473), .map [((be 13 0x6e6f6465732d64656c65746564), .int .int64 3), ((be 21 0x72656c6174696f6e73686970732d64656c65746564), .int .int64 2)]), ((be 21 0x726573756c745f636f6e73756d65645f6166746572), .int .int64 0), ((be 4 0x74797065), .str (be 1 0x77))],
   .done]

/-- The handshake and INIT. -/
theorem opens : opening (be 20 0x6060b01700000001000000000000000000000000) (be 4 0x00000001) (be 40 0x0024b201d013476f6c616e674e656f346a426f6c742f312e30a186736368656d65846e6f6e650000) (be 26 0x0016b170a1867365727665728b4e656f346a2f332e342e360000) = true := by decide +kernel

/-- The session. -/
theorem replays : replay events calls results = true := by decide +kernel

/-- `RowsAffected` of the results of `Exec` -/
theorem affected : affects [((be 5 0x7374617473), .map [((be 13 0x6e6f6465732d64656c65746564), .int .int64 3), ((be 21 0x72656c6174696f6e73686970732d64656c65746564), .int .int64 2)]), ((be 21 0x726573756c745f636f6e73756d65645f6166746572), .int .int64 0), ((be 4 0x74797065), .str (be 1 0x77))] 5 = true := by decide +kernel

end BoltStmt_MixedObjects

namespace BoltStmt_Path

/-- recordings/TestBoltStmt_Path.json after the first four events -/
def events : List (Bool × Bytes) :=
  [(true, (be 83 0x004fb210d04a43524541544520706174683d28663a464f4f207b613a202231227d292d5b623a544f5d2d3e28633a424152293c2d5b643a46524f4d5d2d28653a42415a292052455455524e2070617468a00000)),
   (false, (be 45 0x0029b170a2d016726573756c745f617661696c61626c655f61667465721c866669656c64739184706174680000)),
   (true, (be 6 0x0002b03f0000)),
   (false, (be 65 0x003db17191b35093b34e249183464f4fa181618131b34e139183424152a0b34e1c918342415aa092b3723582544fa0b372c900db8446524f4da0940101fe020000)),
   (false, (be 115 0x006fb170a3857374617473a48c6c6162656c732d616464656403d01572656c6174696f6e73686970732d63726561746564028d6e6f6465732d63726561746564038e70726f706572746965732d73657401d015726573756c745f636f6e73756d65645f61667465720084747970658272770000)),
   (true, (be 77 0x0049b210d0444d415443482028663a464f4f292d5b623a544f5d2d3e28633a424152293c2d5b643a46524f4d5d2d28653a42415a292044454c45544520662c20622c20632c20642c2065a00000)),
   (true, (be 6 0x0002b03f0000)),
   (false, (be 40 0x0024b170a2d016726573756c745f617661696c61626c655f616674657203866669656c6473900000)),
   (false, (be 84 0x0050b170a3857374617473a28d6e6f6465732d64656c6574656403d01572656c6174696f6e73686970732d64656c6574656402d015726573756c745f636f6e73756d65645f616674657200847479706581770000))]

/-- the calls of the test -/
def calls : List (Call KVs) :=
  [.prepare (be 74 0x43524541544520706174683d28663a464f4f207b613a202231227d292d5b623a544f5d2d3e28633a424152293c2d5b643a46524f4d5d2d28653a42415a292052455455524e2070617468),
   .stQuery [],
   .next,
   .closeStmt,
   .prepare (be 68 0x4d415443482028663a464f4f292d5b623a544f5d2d3e28633a424152293c2d5b643a46524f4d5d2d28653a42415a292044454c45544520662c20622c20632c20642c2065),
   .stExec [],
   .close]

/-- what they return -/
def results : List Res :=
  [.done,
   .rows [((be 22 0x726573756c745f617661696c61626c655f6166746572), .int .int64 28), ((be 6 0x6669656c6473), .list [.str (be 4 0x70617468)])],
   .row [.path [.node 36 [(be 3 0x464f4f)] [((be 1 0x61), .str (be 1 0x31))], .node 19 [(be 3 0x424152)] [], .node 28 [(be 3 0x42415a)] []] [.unbound 53 (be 2 0x544f) [], .unbound 219 (be 4 0x46524f4d) []] [1, 1, (-2), 2]],
   .done,
   .done,
   .summary [((be 5 0x7374617473), .map [((be 13 0x6e6f6465732d64656c65746564), .int .int64 3), ((be 21 0x72656c6174696f6e73686970732d64656c65746564), .int .int64 2)]), ((be 21 0x726573756c745f636f6e73756d65645f6166746572), .int .int64 0), ((be 4 0x74797065), .str (be 1 0x77))],
   .done]

/-- The handshake and INIT. -/
theorem opens : opening (be 20 0x6060b01700000001000000000000000000000000) (be 4 0x00000001) (be 40 0x0024b201d013476f6c616e674e656f346a426f6c742f312e30a186736368656d65846e6f6e650000) (be 26 0x0016b170a1867365727665728b4e656f346a2f332e342e360000) = true := by decide +kernel

/-- The session. -/
theorem replays : replay events calls results = true := by decide +kernel

/-- `RowsAffected` of the results of `Exec` -/
theorem affected : affects [((be 5 0x7374617473), .map [((be 13 0x6e6f6465732d64656c65746564), .int .int64 3), ((be 21 0x72656c6174696f6e73686970732d64656c65746564), .int .int64 2)]), ((be 21 0x726573756c745f636f6e73756d65645f6166746572), .int .int64 0), ((be 4 0x74797065), .str (be 1 0x77))] 5 = true := by decide +kernel

end BoltStmt_Path

namespace BoltStmt_PipelineExec

/-- recordings/TestBoltStmt_PipelineExec.json after the first four events -/
def events : List (Bool × Bytes) :=
  [(true, (be 49 0x002db210d01f4352454154452028663a464f4f207b613a207b617d2c20623a207b627d7d29a281610181628374776f0000)),
   (true, (be 6 0x0002b03f0000)),
   (true, (be 51 0x002fb210d01f4352454154452028623a424152207b613a207b617d2c20623a207b627d7d29a281610281628574687265650000)),
   (true, (be 6 0x0002b03f0000)),
   (true, (be 50 0x002eb210d01f4352454154452028633a42415a207b613a207b617d2c20623a207b627d7d29a2816103816284666f75720000)),
   (true, (be 6 0x0002b03f0000)),
   (false, (be 40 0x0024b170a2d016726573756c745f617661696c61626c655f61667465720b866669656c6473900000)),
   (false, (be 90 0x0056b170a3857374617473a38c6c6162656c732d6164646564018d6e6f6465732d63726561746564018e70726f706572746965732d73657402d015726573756c745f636f6e73756d65645f616674657200847479706581770000)),
   (false, (be 40 0x0024b170a2d016726573756c745f617661696c61626c655f61667465720b866669656c6473900000)),
   (false, (be 90 0x0056b170a3857374617473a38c6c6162656c732d6164646564018d6e6f6465732d63726561746564018e70726f706572746965732d73657402d015726573756c745f636f6e73756d65645f616674657200847479706581770000)),
   (false, (be 40 0x0024b170a2d016726573756c745f617661696c61626c655f616674657208866669656c6473900000)),
   (false, (be 90 0x0056b170a3857374617473a38c6c6162656c732d6164646564018d6e6f6465732d63726561746564018e70726f706572746965732d73657402d015726573756c745f636f6e73756d65645f616674657200847479706581770000)),
   (true, (be 56 0x0034b210d02f4d415443482028663a464f4f292c2028623a424152292c2028633a42415a292072657475726e20662c20622c20633ba00000)),
   (false, (be 46 0x002ab170a2d016726573756c745f617661696c61626c655f61667465725e866669656c6473938166816281630000)),
   (true, (be 6 0x0002b03f0000)),
   (false, (be 64 0x003cb17193b34e139183464f4fa281610181628374776fb34e1c9183424152a28161028162857468726565b34e24918342415aa2816103816284666f75720000)),
   (false, (be 38 0x0022b170a2d015726573756c745f636f6e73756d65645f616674657203847479706581720000)),
   (true, (be 55 0x0033b210d02e4d415443482028663a464f4f292c2028623a424152292c2028633a42415a292044454c45544520662c20622c2063a00000)),
   (true, (be 6 0x0002b03f0000)),
   (false, (be 40 0x0024b170a2d016726573756c745f617661696c61626c655f616674657221866669656c6473900000)),
   (false, (be 60 0x0038b170a3857374617473a18d6e6f6465732d64656c6574656403d015726573756c745f636f6e73756d65645f616674657200847479706581770000))]

/-- the calls of the test -/
def calls : List (Call KVs) :=
  [.preparePipe [(be 31 0x4352454154452028663a464f4f207b613a207b617d2c20623a207b627d7d29), (be 31 0x4352454154452028623a424152207b613a207b617d2c20623a207b627d7d29), (be 31 0x4352454154452028633a42415a207b613a207b617d2c20623a207b627d7d29)],
   .stExecPipe [[((be 1 0x61), .int .int 1), ((be 1 0x62), .str (be 3 0x74776f))], [((be 1 0x61), .int .int 2), ((be 1 0x62), .str (be 5 0x7468726565))], [((be 1 0x61), .int .int 3), ((be 1 0x62), .str (be 4 0x666f7572))]],
   .closeStmt,
   .prepare (be 47 0x4d415443482028663a464f4f292c2028623a424152292c2028633a42415a292072657475726e20662c20622c20633b),
   .stQuery [],
   .next,
   .closeStmt,
   .prepare (be 46 0x4d415443482028663a464f4f292c2028623a424152292c2028633a42415a292044454c45544520662c20622c2063),
   .stExec [],
   .close]

/-- what they return -/
def results : List Res :=
  [.done,
   .summaries [[((be 5 0x7374617473), .map [((be 12 0x6c6162656c732d6164646564), .int .int64 1), ((be 13 0x6e6f6465732d63726561746564), .int .int64 1), ((be 14 0x70726f706572746965732d736574), .int .int64 2)]), ((be 21 0x726573756c745f636f6e73756d65645f6166746572), .int .int64 0), ((be 4 0x74797065), .str (be 1 0x77))], [((be 5 0x7374617473), .map [((be 12 0x6c6162656c732d6164646564), .int .int64 1), ((be 13 0x6e6f6465732d63726561746564), .int .int64 1), ((be 14 0x70726f706572746965732d736574), .int .int64 2)]), ((be 21 0x726573756c745f636f6e73756d65645f6166746572), .int .int64 0), ((be 4 0x74797065), .str (be 1 0x77))], [((be 5 0x7374617473), .map [((be 12 0x6c6162656c732d6164646564), .int .int64 1), ((be 13 0x6e6f6465732d63726561746564), .int .int64 1), ((be 14 0x70726f706572746965732d736574), .int .int64 2)]), ((be 21 0x726573756c745f636f6e73756d65645f6166746572), .int .int64 0), ((be 4 0x74797065), .str (be 1 0x77))]],
   .done,
   .done,
   .rows [((be 22 0x726573756c745f617661696c61626c655f6166746572), .int .int64 94), ((be 6 0x6669656c6473), .list [.str (be 1 0x66), .str (be 1 0x62), .str (be 1 0x63)])],
   .row [.node 19 [(be 3 0x464f4f)] [((be 1 0x61), .int .int64 1), ((be 1 0x62), .str (be 3 0x74776f))], .node 28 [(be 3 0x424152)] [((be 1 0x61), .int .int64 2), ((be 1 0x62), .str (be 5 0x7468726565))], .node 36 [(be 3 0x42415a)] [((be 1 0x61), .int .int64 3), ((be 1 0x62), .str (be 4 0x666f7572))]],
   .done,
   .done,
   .summary [((be 5 0x7374617473), .map [((be 13 0x6e6f6465732d64656c65746564), .int .int64 3)]), ((be 21 0x726573756c745f636f6e73756d65645f6166746572), .int .int64 0), ((be 4 0x74797065), .str (be 1 0x77))],
   .done]

/-- The handshake and INIT. -/
theorem opens : opening (be 20 0x6060b01700000001000000000000000000000000) (be 4 0x00000001) (be 40 0x0024b201d013476f6c616e674e656f346a426f6c742f312e30a186736368656d65846e6f6e650000) (be 26 0x0016b170a1867365727665728b4e656f346a2f332e342e360000) = true := by decide +kernel

/-- The session. -/
theorem replays : replay events calls results = true := by decide +kernel

/-- `RowsAffected` of the results of `Exec` -/
theorem affected : affects [((be 5 0x7374617473), .map [((be 13 0x6e6f6465732d64656c65746564), .int .int64 3)]), ((be 21 0x726573756c745f636f6e73756d65645f6166746572), .int .int64 0), ((be 4 0x74797065), .str (be 1 0x77))] 3 = true ∧ affects [((be 5 0x7374617473), .map [((be 12 0x6c6162656c732d6164646564), .int .int64 1), ((be 13 0x6e6f6465732d63726561746564), .int .int64 1), ((be 14 0x70726f706572746965732d736574), .int .int64 2)]), ((be 21 0x726573756c745f636f6e73756d65645f6166746572), .int .int64 0), ((be 4 0x74797065), .str (be 1 0x77))] 1 = true ∧ affects [((be 5 0x7374617473), .map [((be 12 0x6c6162656c732d6164646564), .int .int64 1), ((be 13 0x6e6f6465732d63726561746564), .int .int64 1), ((be 14 0x70726f706572746965732d736574), .int .int64 2)]), ((be 21 0x726573756c745f636f6e73756d65645f6166746572), .int .int64 0), ((be 4 0x74797065), .str (be 1 0x77))] 1 = true ∧ affects [((be 5 0x7374617473), .map [((be 12 0x6c6162656c732d6164646564), .int .int64 1), ((be 13 0x6e6f6465732d63726561746564), .int .int64 1), ((be 14 0x70726f706572746965732d736574), .int .int64 2)]), ((be 21 0x726573756c745f636f6e73756d65645f6166746572), .int .int64 0), ((be 4 0x74797065), .str (be 1 0x77))] 1 = true := by decide +kernel

end BoltStmt_PipelineExec

namespace BoltStmt_PipelineQuery

/-- recordings/TestBoltStmt_PipelineQuery.json after the first four events -/
def events : List (Bool × Bytes) :=
  [(true, (be 58 0x0036b210d0284352454154452028663a464f4f207b613a207b617d2c20623a207b627d7d292052455455524e2066a281610181628374776f0000)),
   (true, (be 6 0x0002b03f0000)),
   (true, (be 60 0x0038b210d0284352454154452028623a424152207b613a207b617d2c20623a207b627d7d292052455455524e2062a281610281628574687265650000)),
   (true, (be 6 0x0002b03f0000)),
   (true, (be 59 0x0037b210d0284352454154452028633a42415a207b613a207b617d2c20623a207b627d7d292052455455524e2063a2816284666f75728161030000)),
   (true, (be 6 0x0002b03f0000)),
   (false, (be 42 0x0026b170a2d016726573756c745f617661696c61626c655f61667465720f866669656c64739181660000)),
   (false, (be 25 0x0015b17191b34e5a9183464f4fa281610181628374776f0000)),
   (false, (be 91 0x0057b170a3857374617473a38c6c6162656c732d6164646564018d6e6f6465732d63726561746564018e70726f706572746965732d73657402d015726573756c745f636f6e73756d65645f61667465720084747970658272770000)),
   (false, (be 42 0x0026b170a2d016726573756c745f617661696c61626c655f61667465720c866669656c64739181620000)),
   (false, (be 27 0x0017b17191b34e5f9183424152a281610281628574687265650000)),
   (false, (be 91 0x0057b170a3857374617473a38c6c6162656c732d6164646564018d6e6f6465732d63726561746564018e70726f706572746965732d73657402d015726573756c745f636f6e73756d65645f61667465720184747970658272770000)),
   (false, (be 42 0x0026b170a2d016726573756c745f617661696c61626c655f61667465720c866669656c64739181630000)),
   (false, (be 26 0x0016b17191b34e43918342415aa2816103816284666f75720000)),
   (false, (be 91 0x0057b170a3857374617473a38c6c6162656c732d6164646564018d6e6f6465732d63726561746564018e70726f706572746965732d73657402d015726573756c745f636f6e73756d65645f61667465720084747970658272770000)),
   (true, (be 55 0x0033b210d02e4d415443482028663a464f4f292c2028623a424152292c2028633a42415a292044454c45544520662c20622c2063a00000)),
   (true, (be 6 0x0002b03f0000)),
   (false, (be 40 0x0024b170a2d016726573756c745f617661696c61626c655f616674657202866669656c6473900000)),
   (false, (be 60 0x0038b170a3857374617473a18d6e6f6465732d64656c6574656403d015726573756c745f636f6e73756d65645f616674657200847479706581770000))]

/-- the calls of the test -/
def calls : List (Call KVs) :=
  [.preparePipe [(be 40 0x4352454154452028663a464f4f207b613a207b617d2c20623a207b627d7d292052455455524e2066), (be 40 0x4352454154452028623a424152207b613a207b617d2c20623a207b627d7d292052455455524e2062), (be 40 0x4352454154452028633a42415a207b613a207b617d2c20623a207b627d7d292052455455524e2063)],
   .stQueryPipe [[((be 1 0x61), .int .int 1), ((be 1 0x62), .str (be 3 0x74776f))], [((be 1 0x61), .int .int 2), ((be 1 0x62), .str (be 5 0x7468726565))], [((be 1 0x62), .str (be 4 0x666f7572)), ((be 1 0x61), .int .int 3)]],
   .nextPipe,
   .nextPipe,
   .nextPipe,
   .nextPipe,
   .nextPipe,
   .nextPipe,
   .closeRows,
   .closeStmt,
   .prepare (be 46 0x4d415443482028663a464f4f292c2028623a424152292c2028633a42415a292044454c45544520662c20622c2063),
   .stExec [],
   .close]

/-- what they return -/
def results : List Res :=
  [.done,
   .rows [((be 22 0x726573756c745f617661696c61626c655f6166746572), .int .int64 15), ((be 6 0x6669656c6473), .list [.str (be 1 0x66)])],
   .row [.node 90 [(be 3 0x464f4f)] [((be 1 0x61), .int .int64 1), ((be 1 0x62), .str (be 3 0x74776f))]],
   .next [((be 22 0x726573756c745f617661696c61626c655f6166746572), .int .int64 12), ((be 6 0x6669656c6473), .list [.str (be 1 0x62)])] [((be 22 0x726573756c745f617661696c61626c655f6166746572), .int .int64 12), ((be 6 0x6669656c6473), .list [.str (be 1 0x62)])],
   .row [.node 95 [(be 3 0x424152)] [((be 1 0x61), .int .int64 2), ((be 1 0x62), .str (be 5 0x7468726565))]],
   .next [((be 22 0x726573756c745f617661696c61626c655f6166746572), .int .int64 12), ((be 6 0x6669656c6473), .list [.str (be 1 0x63)])] [((be 22 0x726573756c745f617661696c61626c655f6166746572), .int .int64 12), ((be 6 0x6669656c6473), .list [.str (be 1 0x63)])],
   .row [.node 67 [(be 3 0x42415a)] [((be 1 0x61), .int .int64 3), ((be 1 0x62), .str (be 4 0x666f7572))]],
   .pipeEnd,
   .done,
   .done,
   .done,
   .summary [((be 5 0x7374617473), .map [((be 13 0x6e6f6465732d64656c65746564), .int .int64 3)]), ((be 21 0x726573756c745f636f6e73756d65645f6166746572), .int .int64 0), ((be 4 0x74797065), .str (be 1 0x77))],
   .done]

/-- The handshake and INIT. -/
theorem opens : opening (be 20 0x6060b01700000001000000000000000000000000) (be 4 0x00000001) (be 40 0x0024b201d013476f6c616e674e656f346a426f6c742f312e30a186736368656d65846e6f6e650000) (be 26 0x0016b170a1867365727665728b4e656f346a2f332e342e360000) = true := by decide +kernel

/-- The session. -/
theorem replays : replay events calls results = true := by decide +kernel

/-- `RowsAffected` of the results of `Exec` -/
theorem affected : affects [((be 5 0x7374617473), .map [((be 13 0x6e6f6465732d64656c65746564), .int .int64 3)]), ((be 21 0x726573756c745f636f6e73756d65645f6166746572), .int .int64 0), ((be 4 0x74797065), .str (be 1 0x77))] 3 = true := by decide +kernel

end BoltStmt_PipelineQuery

namespace BoltStmt_PipelineQueryCloseBeginning

/-- recordings/TestBoltStmt_PipelineQueryCloseBeginning.json after the first four events -/
def events : List (Bool × Bytes) :=
  [(true, (be 58 0x0036b210d0284352454154452028663a464f4f207b613a207b617d2c20623a207b627d7d292052455455524e2066a281628374776f8161010000)),
   (true, (be 6 0x0002b03f0000)),
   (true, (be 60 0x0038b210d0284352454154452028623a424152207b613a207b617d2c20623a207b627d7d292052455455524e2062a281610281628574687265650000)),
   (true, (be 6 0x0002b03f0000)),
   (true, (be 59 0x0037b210d0284352454154452028633a42415a207b613a207b617d2c20623a207b627d7d292052455455524e2063a2816103816284666f75720000)),
   (true, (be 6 0x0002b03f0000)),
   (false, (be 42 0x0026b170a2d016726573756c745f617661696c61626c655f616674657201866669656c64739181660000)),
   (false, (be 27 0x0017b17191b34ec900ba9183464f4fa281610181628374776f0000)),
   (false, (be 91 0x0057b170a3857374617473a38c6c6162656c732d6164646564018d6e6f6465732d63726561746564018e70726f706572746965732d73657402d015726573756c745f636f6e73756d65645f61667465720184747970658272770000)),
   (false, (be 42 0x0026b170a2d016726573756c745f617661696c61626c655f616674657201866669656c64739181620000)),
   (false, (be 29 0x0019b17191b34ec900bf9183424152a281610281628574687265650000)),
   (false, (be 91 0x0057b170a3857374617473a38c6c6162656c732d6164646564018d6e6f6465732d63726561746564018e70726f706572746965732d73657402d015726573756c745f636f6e73756d65645f61667465720084747970658272770000)),
   (false, (be 42 0x0026b170a2d016726573756c745f617661696c61626c655f616674657202866669656c64739181630000)),
   (false, (be 26 0x0016b17191b34e6c918342415aa2816103816284666f75720000)),
   (false, (be 91 0x0057b170a3857374617473a38c6c6162656c732d6164646564018d6e6f6465732d63726561746564018e70726f706572746965732d73657402d015726573756c745f636f6e73756d65645f61667465720084747970658272770000)),
   (true, (be 55 0x0033b210d02e4d415443482028663a464f4f292c2028623a424152292c2028633a42415a292044454c45544520662c20622c2063a00000)),
   (true, (be 6 0x0002b03f0000)),
   (false, (be 40 0x0024b170a2d016726573756c745f617661696c61626c655f616674657202866669656c6473900000)),
   (false, (be 60 0x0038b170a3857374617473a18d6e6f6465732d64656c6574656403d015726573756c745f636f6e73756d65645f616674657200847479706581770000))]

/-- the calls of the test -/
def calls : List (Call KVs) :=
  [.preparePipe [(be 40 0x4352454154452028663a464f4f207b613a207b617d2c20623a207b627d7d292052455455524e2066), (be 40 0x4352454154452028623a424152207b613a207b617d2c20623a207b627d7d292052455455524e2062), (be 40 0x4352454154452028633a42415a207b613a207b617d2c20623a207b627d7d292052455455524e2063)],
   .stQueryPipe [[((be 1 0x62), .str (be 3 0x74776f)), ((be 1 0x61), .int .int 1)], [((be 1 0x61), .int .int 2), ((be 1 0x62), .str (be 5 0x7468726565))], [((be 1 0x61), .int .int 3), ((be 1 0x62), .str (be 4 0x666f7572))]],
   .closeRows,
   .closeStmt,
   .prepare (be 46 0x4d415443482028663a464f4f292c2028623a424152292c2028633a42415a292044454c45544520662c20622c2063),
   .stExec [],
   .close]

/-- what they return -/
def results : List Res :=
  [.done,
   .rows [((be 22 0x726573756c745f617661696c61626c655f6166746572), .int .int64 1), ((be 6 0x6669656c6473), .list [.str (be 1 0x66)])],
   .done,
   .done,
   .done,
   .summary [((be 5 0x7374617473), .map [((be 13 0x6e6f6465732d64656c65746564), .int .int64 3)]), ((be 21 0x726573756c745f636f6e73756d65645f6166746572), .int .int64 0), ((be 4 0x74797065), .str (be 1 0x77))],
   .done]

/-- The handshake and INIT. -/
theorem opens : opening (be 20 0x6060b01700000001000000000000000000000000) (be 4 0x00000001) (be 40 0x0024b201d013476f6c616e674e656f346a426f6c742f312e30a186736368656d65846e6f6e650000) (be 26 0x0016b170a1867365727665728b4e656f346a2f332e342e360000) = true := by decide +kernel

/-- The session. -/
theorem replays : replay events calls results = true := by decide +kernel

/-- `RowsAffected` of the results of `Exec` -/
theorem affected : affects [((be 5 0x7374617473), .map [((be 13 0x6e6f6465732d64656c65746564), .int .int64 3)]), ((be 21 0x726573756c745f636f6e73756d65645f6166746572), .int .int64 0), ((be 4 0x74797065), .str (be 1 0x77))] 3 = true := by decide +kernel

end BoltStmt_PipelineQueryCloseBeginning

namespace BoltStmt_PipelineQueryCloseMiddle

/-- recordings/TestBoltStmt_PipelineQueryCloseMiddle.json after the first four events -/
def events : List (Bool × Bytes) :=
  [(true, (be 58 0x0036b210d0284352454154452028663a464f4f207b613a207b617d2c20623a207b627d7d292052455455524e2066a281628374776f8161010000)),
   (true, (be 6 0x0002b03f0000)),
   (true, (be 60 0x0038b210d0284352454154452028623a424152207b613a207b617d2c20623a207b627d7d292052455455524e2062a281610281628574687265650000)),
   (true, (be 6 0x0002b03f0000)),
   (true, (be 59 0x0037b210d0284352454154452028633a42415a207b613a207b617d2c20623a207b627d7d292052455455524e2063a2816103816284666f75720000)),
   (true, (be 6 0x0002b03f0000)),
   (false, (be 42 0x0026b170a2d016726573756c745f617661696c61626c655f616674657202866669656c64739181660000)),
   (false, (be 25 0x0015b17191b34e4e9183464f4fa281610181628374776f0000)),
   (false, (be 91 0x0057b170a3857374617473a38c6c6162656c732d6164646564018d6e6f6465732d63726561746564018e70726f706572746965732d73657402d015726573756c745f636f6e73756d65645f61667465720084747970658272770000)),
   (false, (be 42 0x0026b170a2d016726573756c745f617661696c61626c655f616674657201866669656c64739181620000)),
   (false, (be 29 0x0019b17191b34ec900a29183424152a281610281628574687265650000)),
   (false, (be 91 0x0057b170a3857374617473a38c6c6162656c732d6164646564018d6e6f6465732d63726561746564018e70726f706572746965732d73657402d015726573756c745f636f6e73756d65645f61667465720084747970658272770000)),
   (false, (be 42 0x0026b170a2d016726573756c745f617661696c61626c655f616674657201866669656c64739181630000)),
   (false, (be 28 0x0018b17191b34ec900a3918342415aa2816103816284666f75720000)),
   (false, (be 91 0x0057b170a3857374617473a38c6c6162656c732d6164646564018d6e6f6465732d63726561746564018e70726f706572746965732d73657402d015726573756c745f636f6e73756d65645f61667465720084747970658272770000)),
   (true, (be 55 0x0033b210d02e4d415443482028663a464f4f292c2028623a424152292c2028633a42415a292044454c45544520662c20622c2063a00000)),
   (true, (be 6 0x0002b03f0000)),
   (false, (be 40 0x0024b170a2d016726573756c745f617661696c61626c655f616674657202866669656c6473900000)),
   (false, (be 60 0x0038b170a3857374617473a18d6e6f6465732d64656c6574656403d015726573756c745f636f6e73756d65645f616674657200847479706581770000))]

/-- the calls of the test -/
def calls : List (Call KVs) :=
  [.preparePipe [(be 40 0x4352454154452028663a464f4f207b613a207b617d2c20623a207b627d7d292052455455524e2066), (be 40 0x4352454154452028623a424152207b613a207b617d2c20623a207b627d7d292052455455524e2062), (be 40 0x4352454154452028633a42415a207b613a207b617d2c20623a207b627d7d292052455455524e2063)],
   .stQueryPipe [[((be 1 0x62), .str (be 3 0x74776f)), ((be 1 0x61), .int .int 1)], [((be 1 0x61), .int .int 2), ((be 1 0x62), .str (be 5 0x7468726565))], [((be 1 0x61), .int .int 3), ((be 1 0x62), .str (be 4 0x666f7572))]],
   .nextPipe,
   .nextPipe,
   .closeRows,
   .closeStmt,
   .prepare (be 46 0x4d415443482028663a464f4f292c2028623a424152292c2028633a42415a292044454c45544520662c20622c2063),
   .stExec [],
   .close]

/-- what they return -/
def results : List Res :=
  [.done,
   .rows [((be 22 0x726573756c745f617661696c61626c655f6166746572), .int .int64 2), ((be 6 0x6669656c6473), .list [.str (be 1 0x66)])],
   .row [.node 78 [(be 3 0x464f4f)] [((be 1 0x61), .int .int64 1), ((be 1 0x62), .str (be 3 0x74776f))]],
   .next [((be 22 0x726573756c745f617661696c61626c655f6166746572), .int .int64 1), ((be 6 0x6669656c6473), .list [.str (be 1 0x62)])] [((be 22 0x726573756c745f617661696c61626c655f6166746572), .int .int64 1), ((be 6 0x6669656c6473), .list [.str (be 1 0x62)])],
   .done,
   .done,
   .done,
   .summary [((be 5 0x7374617473), .map [((be 13 0x6e6f6465732d64656c65746564), .int .int64 3)]), ((be 21 0x726573756c745f636f6e73756d65645f6166746572), .int .int64 0), ((be 4 0x74797065), .str (be 1 0x77))],
   .done]

/-- The handshake and INIT. -/
theorem opens : opening (be 20 0x6060b01700000001000000000000000000000000) (be 4 0x00000001) (be 40 0x0024b201d013476f6c616e674e656f346a426f6c742f312e30a186736368656d65846e6f6e650000) (be 26 0x0016b170a1867365727665728b4e656f346a2f332e342e360000) = true := by decide +kernel

/-- The session. -/
theorem replays : replay events calls results = true := by decide +kernel

/-- `RowsAffected` of the results of `Exec` -/
theorem affected : affects [((be 5 0x7374617473), .map [((be 13 0x6e6f6465732d64656c65746564), .int .int64 3)]), ((be 21 0x726573756c745f636f6e73756d65645f6166746572), .int .int64 0), ((be 4 0x74797065), .str (be 1 0x77))] 3 = true := by decide +kernel

end BoltStmt_PipelineQueryCloseMiddle

namespace BoltStmt_SelectIntLimits

/-- recordings/TestBoltStmt_SelectIntLimits.json after the first four events -/
def events : List (Bool × Bytes) :=
  [(true, (be 242 0x00eeb210d09652455455524e207b6d696e36347d206173206d696e36342c207b6d696e33327d206173206d696e33322c207b6d696e31367d206173206d696e31362c207b6d696e387d206173206d696e382c202d31362c207b6d6178387d206173206d6178382c207b6d617831367d206173206d617831362c207b6d617833327d206173206d617833322c207b6d617836347d206173206d61783634a8856d696e3634cb8000000000000000856d696e3332ca80000000856d696e3136c98000846d696e38c880846d6178387f856d61783136c97fff856d61783332ca7fffffff856d61783634cb7fffffffffffffff0000)),
   (false, (be 90 0x0056b170a2d016726573756c745f617661696c61626c655f616674657210866669656c647399856d696e3634856d696e3332856d696e3136846d696e38832d3136846d617838856d61783136856d61783332856d617836340000)),
   (true, (be 6 0x0002b03f0000)),
   (false, (be 45 0x0029b17199cb8000000000000000ca80000000c98000c880f07fc97fffca7fffffffcb7fffffffffffffff0000)),
   (false, (be 38 0x0022b170a2d015726573756c745f636f6e73756d65645f616674657200847479706581720000))]

/-- the calls of the test -/
def calls : List (Call KVs) :=
  [.prepare (be 150 0x52455455524e207b6d696e36347d206173206d696e36342c207b6d696e33327d206173206d696e33322c207b6d696e31367d206173206d696e31362c207b6d696e387d206173206d696e382c202d31362c207b6d6178387d206173206d6178382c207b6d617831367d206173206d617831362c207b6d617833327d206173206d617833322c207b6d617836347d206173206d61783634),
   .stQuery [((be 5 0x6d696e3634), .int .int (-9223372036854775808)), ((be 5 0x6d696e3332), .int .int (-2147483648)), ((be 5 0x6d696e3136), .int .int (-32768)), ((be 4 0x6d696e38), .int .int (-128)), ((be 4 0x6d617838), .int .int 127), ((be 5 0x6d61783136), .int .int 32767), ((be 5 0x6d61783332), .int .int 2147483647), ((be 5 0x6d61783634), .int .int 9223372036854775807)],
   .next,
   .next,
   .close]

/-- what they return -/
def results : List Res :=
  [.done,
   .rows [((be 22 0x726573756c745f617661696c61626c655f6166746572), .int .int64 16), ((be 6 0x6669656c6473), .list [.str (be 5 0x6d696e3634), .str (be 5 0x6d696e3332), .str (be 5 0x6d696e3136), .str (be 4 0x6d696e38), .str (be 3 0x2d3136), .str (be 4 0x6d617838), .str (be 5 0x6d61783136), .str (be 5 0x6d61783332), .str (be 5 0x6d61783634)])],
   .row [.int .int64 (-9223372036854775808), .int .int64 (-2147483648), .int .int64 (-32768), .int .int64 (-128), .int .int64 (-16), .int .int64 127, .int .int64 32767, .int .int64 2147483647, .int .int64 9223372036854775807],
   .eof [((be 21 0x726573756c745f636f6e73756d65645f6166746572), .int .int64 0), ((be 4 0x74797065), .str (be 1 0x72))],
   .done]

/-- The handshake and INIT. -/
theorem opens : opening (be 20 0x6060b01700000001000000000000000000000000) (be 4 0x00000001) (be 40 0x0024b201d013476f6c616e674e656f346a426f6c742f312e30a186736368656d65846e6f6e650000) (be 26 0x0016b170a1867365727665728b4e656f346a2f332e342e360000) = true := by decide +kernel

/-- The session. -/
theorem replays : replay events calls results = true := by decide +kernel

end BoltStmt_SelectIntLimits

namespace BoltStmt_SelectMany

/-- recordings/TestBoltStmt_SelectMany.json after the first four events -/
def events : List (Bool × Bytes) :=
  [(true, (be 78 0x004ab210d04552455455524e20312c2033343233342e33343332332c2022737472696e67222c205b312c202232222c20332c20747275652c206e756c6c5d2c20747275652c206e756c6c3ba00000)),
   (false, (be 98 0x005eb170a2d016726573756c745f617661696c61626c655f616674657227866669656c64739681318b33343233342e33343332338822737472696e6722d0175b312c202232222c20332c20747275652c206e756c6c5d8474727565846e756c6c0000)),
   (true, (be 6 0x0002b03f0000)),
   (false, (be 33 0x001db1719601c140e0b74afbbd7b2086737472696e679501813203c3c0c3c00000)),
   (false, (be 38 0x0022b170a2d015726573756c745f636f6e73756d65645f616674657202847479706581720000))]

/-- the calls of the test -/
def calls : List (Call KVs) :=
  [.prepare (be 69 0x52455455524e20312c2033343233342e33343332332c2022737472696e67222c205b312c202232222c20332c20747275652c206e756c6c5d2c20747275652c206e756c6c3b),
   .stQuery [],
   .next,
   .next,
   .close]

/-- what they return -/
def results : List Res :=
  [.done,
   .rows [((be 22 0x726573756c745f617661696c61626c655f6166746572), .int .int64 39), ((be 6 0x6669656c6473), .list [.str (be 1 0x31), .str (be 11 0x33343233342e3334333233), .str (be 8 0x22737472696e6722), .str (be 23 0x5b312c202232222c20332c20747275652c206e756c6c5d), .str (be 4 0x74727565), .str (be 4 0x6e756c6c)])],
   .row [.int .int64 1, .float64 0x40e0b74afbbd7b20, .str (be 6 0x737472696e67), .list [.int .int64 1, .str (be 1 0x32), .int .int64 3, .bool true, .nil], .bool true, .nil],
   .eof [((be 21 0x726573756c745f636f6e73756d65645f6166746572), .int .int64 2), ((be 4 0x74797065), .str (be 1 0x72))],
   .done]

/-- The handshake and INIT. -/
theorem opens : opening (be 20 0x6060b01700000001000000000000000000000000) (be 4 0x00000001) (be 40 0x0024b201d013476f6c616e674e656f346a426f6c742f312e30a186736368656d65846e6f6e650000) (be 26 0x0016b170a1867365727665728b4e656f346a2f332e342e360000) = true := by decide +kernel

/-- The session. -/
theorem replays : replay events calls results = true := by decide +kernel

end BoltStmt_SelectMany

namespace BoltStmt_SelectOne

/-- recordings/TestBoltStmt_SelectOne.json after the first four events -/
def events : List (Bool × Bytes) :=
  [(true, (be 17 0x000db2108952455455524e20313ba00000)),
   (false, (be 42 0x0026b170a2d016726573756c745f617661696c61626c655f616674657203866669656c64739181310000)),
   (true, (be 6 0x0002b03f0000)),
   (false, (be 8 0x0004b17191010000)),
   (false, (be 38 0x0022b170a2d015726573756c745f636f6e73756d65645f616674657200847479706581720000))]

/-- the calls of the test -/
def calls : List (Call KVs) :=
  [.prepare (be 9 0x52455455524e20313b),
   .stQuery [],
   .next,
   .next,
   .close]

/-- what they return -/
def results : List Res :=
  [.done,
   .rows [((be 22 0x726573756c745f617661696c61626c655f6166746572), .int .int64 3), ((be 6 0x6669656c6473), .list [.str (be 1 0x31)])],
   .row [.int .int64 1],
   .eof [((be 21 0x726573756c745f636f6e73756d65645f6166746572), .int .int64 0), ((be 4 0x74797065), .str (be 1 0x72))],
   .done]

/-- The handshake and INIT. -/
theorem opens : opening (be 20 0x6060b01700000001000000000000000000000000) (be 4 0x00000001) (be 40 0x0024b201d013476f6c616e674e656f346a426f6c742f312e30a186736368656d65846e6f6e650000) (be 26 0x0016b170a1867365727665728b4e656f346a2f332e342e360000) = true := by decide +kernel

/-- The session. -/
theorem replays : replay events calls results = true := by decide +kernel

end BoltStmt_SelectOne

namespace BoltStmt_SingleNode

/-- recordings/TestBoltStmt_SingleNode.json after the first four events -/
def events : List (Bool × Bytes) :=
  [(true, (be 135 0x0083b210d0584352454154452028663a464f4f207b613a207b617d2c20623a207b627d2c20633a207b637d2c20643a207b647d2c20653a207b657d2c20663a207b667d2c20673a207b677d2c20683a207b687d7d292072657475726e2066a88168c28164c0816183666f6f8162018163c38165930102038166c1400b3333333333338167ff0000)),
   (false, (be 42 0x0026b170a2d016726573756c745f617661696c61626c655f61667465720f866669656c64739181660000)),
   (true, (be 6 0x0002b03f0000)),
   (false, (be 51 0x002fb17191b34e439183464f4fa7816183666f6f8162018163c38165930102038166c1400b3333333333338167ff8168c20000)),
   (false, (be 91 0x0057b170a3857374617473a38c6c6162656c732d6164646564018d6e6f6465732d63726561746564018e70726f706572746965732d73657407d015726573756c745f636f6e73756d65645f61667465720184747970658272770000)),
   (true, (be 31 0x001bb210d0164d415443482028663a464f4f292044454c4554452066a00000)),
   (true, (be 6 0x0002b03f0000)),
   (false, (be 40 0x0024b170a2d016726573756c745f617661696c61626c655f616674657201866669656c6473900000)),
   (false, (be 60 0x0038b170a3857374617473a18d6e6f6465732d64656c6574656401d015726573756c745f636f6e73756d65645f616674657200847479706581770000))]

/-- the calls of the test -/
def calls : List (Call KVs) :=
  [.prepare (be 88 0x4352454154452028663a464f4f207b613a207b617d2c20623a207b627d2c20633a207b637d2c20643a207b647d2c20653a207b657d2c20663a207b667d2c20673a207b677d2c20683a207b687d7d292072657475726e2066),
   .stQuery [((be 1 0x68), .bool false), ((be 1 0x64), .nil), ((be 1 0x61), .str (be 3 0x666f6f)), ((be 1 0x62), .int .int 1), ((be 1 0x63), .bool true), ((be 1 0x65), .list [.int .int64 1, .int .int64 2, .int .int64 3]), ((be 1 0x66), .float64 0x400b333333333333), ((be 1 0x67), .int .int (-1))],
   .next,
   .closeStmt,
   .prepare (be 22 0x4d415443482028663a464f4f292044454c4554452066),
   .stExec [],
   .close]

/-- what they return -/
def results : List Res :=
  [.done,
   .rows [((be 22 0x726573756c745f617661696c61626c655f6166746572), .int .int64 15), ((be 6 0x6669656c6473), .list [.str (be 1 0x66)])],
   .row [.node 67 [(be 3 0x464f4f)] [((be 1 0x61), .str (be 3 0x666f6f)), ((be 1 0x62), .int .int64 1), ((be 1 0x63), .bool true), ((be 1 0x65), .list [.int .int64 1, .int .int64 2, .int .int64 3]), ((be 1 0x66), .float64 0x400b333333333333), ((be 1 0x67), .int .int64 (-1)), ((be 1 0x68), .bool false)]],
   .done,
   .done,
   .summary [((be 5 0x7374617473), .map [((be 13 0x6e6f6465732d64656c65746564), .int .int64 1)]), ((be 21 0x726573756c745f636f6e73756d65645f6166746572), .int .int64 0), ((be 4 0x74797065), .str (be 1 0x77))],
   .done]

/-- The handshake and INIT. -/
theorem opens : opening (be 20 0x6060b01700000001000000000000000000000000) (be 4 0x00000001) (be 40 0x0024b201d013476f6c616e674e656f346a426f6c742f312e30a186736368656d65846e6f6e650000) (be 26 0x0016b170a1867365727665728b4e656f346a2f332e342e360000) = true := by decide +kernel

/-- The session. -/
theorem replays : replay events calls results = true := by decide +kernel

/-- `RowsAffected` of the results of `Exec` -/
theorem affected : affects [((be 5 0x7374617473), .map [((be 13 0x6e6f6465732d64656c65746564), .int .int64 1)]), ((be 21 0x726573756c745f636f6e73756d65645f6166746572), .int .int64 0), ((be 4 0x74797065), .str (be 1 0x77))] 1 = true := by decide +kernel

end BoltStmt_SingleNode

namespace BoltStmt_SingleRel

/-- recordings/TestBoltStmt_SingleRel.json after the first four events -/
def events : List (Bool × Bytes) :=
  [(true, (be 164 0x00a0b210d0694352454154452028663a464f4f292d5b623a424152207b613a207b617d2c20623a207b627d2c20633a207b637d2c20643a207b647d2c20653a207b657d2c20663a207b667d2c20673a207b677d2c20683a207b687d7d5d2d3e28633a42415a292072657475726e2062a88167ca7fffffff8168c28164c0816183666f6f8162cb7fffffffffffffff8163c38165930102038166c1400b3333333333330000)),
   (false, (be 42 0x0026b170a2d016726573756c745f617661696c61626c655f616674657211866669656c64739181620000)),
   (true, (be 6 0x0002b03f0000)),
   (false, (be 64 0x003cb17191b552565a5f83424152a7816183666f6f8162cb7fffffffffffffff8163c38165930102038166c1400b3333333333338167ca7fffffff8168c20000)),
   (false, (be 115 0x006fb170a3857374617473a48c6c6162656c732d616464656402d01572656c6174696f6e73686970732d63726561746564018d6e6f6465732d63726561746564028e70726f706572746965732d73657407d015726573756c745f636f6e73756d65645f61667465720184747970658272770000)),
   (true, (be 54 0x0032b210d02d4d415443482028663a464f4f292d5b623a4241525d2d3e28633a42415a292044454c45544520662c20622c2063a00000)),
   (true, (be 6 0x0002b03f0000)),
   (false, (be 40 0x0024b170a2d016726573756c745f617661696c61626c655f616674657202866669656c6473900000)),
   (false, (be 84 0x0050b170a3857374617473a28d6e6f6465732d64656c6574656402d01572656c6174696f6e73686970732d64656c6574656401d015726573756c745f636f6e73756d65645f616674657200847479706581770000))]

/-- the calls of the test -/
def calls : List (Call KVs) :=
  [.prepare (be 105 0x4352454154452028663a464f4f292d5b623a424152207b613a207b617d2c20623a207b627d2c20633a207b637d2c20643a207b647d2c20653a207b657d2c20663a207b667d2c20673a207b677d2c20683a207b687d7d5d2d3e28633a42415a292072657475726e2062),
   .stQuery [((be 1 0x67), .int .int32 2147483647), ((be 1 0x68), .bool false), ((be 1 0x64), .nil), ((be 1 0x61), .str (be 3 0x666f6f)), ((be 1 0x62), .int .int64 9223372036854775807), ((be 1 0x63), .bool true), ((be 1 0x65), .list [.int .int64 1, .int .int64 2, .int .int64 3]), ((be 1 0x66), .float64 0x400b333333333333)],
   .next,
   .closeStmt,
   .prepare (be 45 0x4d415443482028663a464f4f292d5b623a4241525d2d3e28633a42415a292044454c45544520662c20622c2063),
   .stExec [],
   .close]

/-- what they return -/
def results : List Res :=
  [.done,
   .rows [((be 22 0x726573756c745f617661696c61626c655f6166746572), .int .int64 17), ((be 6 0x6669656c6473), .list [.str (be 1 0x62)])],
   .row [.rel 86 90 95 (be 3 0x424152) [((be 1 0x61), .str (be 3 0x666f6f)), ((be 1 0x62), .int .int64 9223372036854775807), ((be 1 0x63), .bool true), ((be 1 0x65), .list [.int .int64 1, .int .int64 2, .int .int64 3]), ((be 1 0x66), .float64 0x400b333333333333), ((be 1 0x67), .int .int64 2147483647), ((be 1 0x68), .bool false)]],
   .done,
   .done,
   .summary [((be 5 0x7374617473), .map [((be 13 0x6e6f6465732d64656c65746564), .int .int64 2), ((be 21 0x72656c6174696f6e73686970732d64656c65746564), .int .int64 1)]), ((be 21 0x726573756c745f636f6e73756d65645f6166746572), .int .int64 0), ((be 4 0x74797065), .str (be 1 0x77))],
   .done]

/-- The handshake and INIT. -/
theorem opens : opening (be 20 0x6060b01700000001000000000000000000000000) (be 4 0x00000001) (be 40 0x0024b201d013476f6c616e674e656f346a426f6c742f312e30a186736368656d65846e6f6e650000) (be 26 0x0016b170a1867365727665728b4e656f346a2f332e342e360000) = true := by decide +kernel

/-- The session. -/
theorem replays : replay events calls results = true := by decide +kernel

/-- `RowsAffected` of the results of `Exec` -/
theorem affected : affects [((be 5 0x7374617473), .map [((be 13 0x6e6f6465732d64656c65746564), .int .int64 2), ((be 21 0x72656c6174696f6e73686970732d64656c65746564), .int .int64 1)]), ((be 21 0x726573756c745f636f6e73756d65645f6166746572), .int .int64 0), ((be 4 0x74797065), .str (be 1 0x77))] 3 = true := by decide +kernel

end BoltStmt_SingleRel

namespace BoltTx_Commit

/-- recordings/TestBoltTx_Commit.json after the first four events -/
def events : List (Bool × Bytes) :=
  [(true, (be 13 0x0009b21085424547494ea00000)),
   (true, (be 6 0x0002b03f0000)),
   (false, (be 40 0x0024b170a2d016726573756c745f617661696c61626c655f616674657202866669656c6473900000)),
   (false, (be 7 0x0003b170a00000)),
   (true, (be 87 0x0053b210d04e4352454154452028663a464f4f207b613a202231227d292d5b623a544f5d2d3e28633a424152293c2d5b643a46524f4d5d2d28653a42415a292052455455524e20662c20622c20632c20642c2065a00000)),
   (true, (be 6 0x0002b03f0000)),
   (false, (be 50 0x002eb170a2d016726573756c745f617661696c61626c655f616674657202866669656c647395816681628163816481650000)),
   (false, (be 70 0x0042b17195b34ec9009a9183464f4fa181618131b55238c9009ac900b882544fa0b34ec900b89183424152a0b552c900ad21c900b88446524f4da0b34e21918342415aa00000)),
   (false, (be 115 0x006fb170a3857374617473a48c6c6162656c732d616464656403d01572656c6174696f6e73686970732d63726561746564028d6e6f6465732d63726561746564038e70726f706572746965732d73657401d015726573756c745f636f6e73756d65645f61667465720084747970658272770000)),
   (true, (be 14 0x000ab21086434f4d4d4954a00000)),
   (true, (be 6 0x0002b03f0000)),
   (false, (be 40 0x0024b170a2d016726573756c745f617661696c61626c655f61667465720c866669656c6473900000)),
   (false, (be 42 0x0026b170a188626f6f6b6d61726bd0186e656f346a3a626f6f6b6d61726b3a76313a7478323538370000)),
   (true, (be 86 0x0052b210d04d4d415443482028663a464f4f207b613a202231227d292d5b623a544f5d2d3e28633a424152293c2d5b643a46524f4d5d2d28653a42415a292052455455524e20662c20622c20632c20642c2065a00000)),
   (false, (be 50 0x002eb170a2d016726573756c745f617661696c61626c655f616674657253866669656c647395816681628163816481650000)),
   (true, (be 6 0x0002b03f0000)),
   (false, (be 70 0x0042b17195b34ec9009a9183464f4fa181618131b55238c9009ac900b882544fa0b34ec900b89183424152a0b552c900ad21c900b88446524f4da0b34e21918342415aa00000)),
   (false, (be 38 0x0022b170a2d015726573756c745f636f6e73756d65645f616674657201847479706581720000)),
   (true, (be 77 0x0049b210d0444d415443482028663a464f4f292d5b623a544f5d2d3e28633a424152293c2d5b643a46524f4d5d2d28653a42415a292044454c45544520662c20622c20632c20642c2065a00000)),
   (true, (be 6 0x0002b03f0000)),
   (false, (be 40 0x0024b170a2d016726573756c745f617661696c61626c655f616674657201866669656c6473900000)),
   (false, (be 84 0x0050b170a3857374617473a28d6e6f6465732d64656c6574656403d01572656c6174696f6e73686970732d64656c6574656402d015726573756c745f636f6e73756d65645f616674657200847479706581770000))]

/-- the calls of the test -/
def calls : List (Call KVs) :=
  [.begin,
   .prepare (be 78 0x4352454154452028663a464f4f207b613a202231227d292d5b623a544f5d2d3e28633a424152293c2d5b643a46524f4d5d2d28653a42415a292052455455524e20662c20622c20632c20642c2065),
   .stExec [],
   .commit,
   .closeStmt,
   .prepare (be 77 0x4d415443482028663a464f4f207b613a202231227d292d5b623a544f5d2d3e28633a424152293c2d5b643a46524f4d5d2d28653a42415a292052455455524e20662c20622c20632c20642c2065),
   .stQuery [],
   .next,
   .closeStmt,
   .prepare (be 68 0x4d415443482028663a464f4f292d5b623a544f5d2d3e28633a424152293c2d5b643a46524f4d5d2d28653a42415a292044454c45544520662c20622c20632c20642c2065),
   .stExec [],
   .close]

/-- what they return -/
def results : List Res :=
  [.done,
   .done,
   .summary [((be 5 0x7374617473), .map [((be 12 0x6c6162656c732d6164646564), .int .int64 3), ((be 21 0x72656c6174696f6e73686970732d63726561746564), .int .int64 2), ((be 13 0x6e6f6465732d63726561746564), .int .int64 3), ((be 14 0x70726f706572746965732d736574), .int .int64 1)]), ((be 21 0x726573756c745f636f6e73756d65645f6166746572), .int .int64 0), ((be 4 0x74797065), .str (be 2 0x7277))],
   .done,
   .done,
   .done,
   .rows [((be 22 0x726573756c745f617661696c61626c655f6166746572), .int .int64 83), ((be 6 0x6669656c6473), .list [.str (be 1 0x66), .str (be 1 0x62), .str (be 1 0x63), .str (be 1 0x64), .str (be 1 0x65)])],
   .row [.node 154 [(be 3 0x464f4f)] [((be 1 0x61), .str (be 1 0x31))], .rel 56 154 184 (be 2 0x544f) [], .node 184 [(be 3 0x424152)] [], .rel 173 33 184 (be 4 0x46524f4d) [], .node 33 [(be 3 0x42415a)] []],
   .done,
   .done,
   .summary [((be 5 0x7374617473), .map [((be 13 0x6e6f6465732d64656c65746564), .int .int64 3), ((be 21 0x72656c6174696f6e73686970732d64656c65746564), .int .int64 2)]), ((be 21 0x726573756c745f636f6e73756d65645f6166746572), .int .int64 0), ((be 4 0x74797065), .str (be 1 0x77))],
   .done]

/-- The handshake and INIT. -/
theorem opens : opening (be 20 0x6060b01700000001000000000000000000000000) (be 4 0x00000001) (be 40 0x0024b201d013476f6c616e674e656f346a426f6c742f312e30a186736368656d65846e6f6e650000) (be 26 0x0016b170a1867365727665728b4e656f346a2f332e342e360000) = true := by decide +kernel

/-- The session. -/
theorem replays : replay events calls results = true := by decide +kernel

/-- `RowsAffected` of the results of `Exec` -/
theorem affected : affects [((be 5 0x7374617473), .map [((be 12 0x6c6162656c732d6164646564), .int .int64 3), ((be 21 0x72656c6174696f6e73686970732d63726561746564), .int .int64 2), ((be 13 0x6e6f6465732d63726561746564), .int .int64 3), ((be 14 0x70726f706572746965732d736574), .int .int64 1)]), ((be 21 0x726573756c745f636f6e73756d65645f6166746572), .int .int64 0), ((be 4 0x74797065), .str (be 2 0x7277))] 5 = true ∧ affects [((be 5 0x7374617473), .map [((be 13 0x6e6f6465732d64656c65746564), .int .int64 3), ((be 21 0x72656c6174696f6e73686970732d64656c65746564), .int .int64 2)]), ((be 21 0x726573756c745f636f6e73756d65645f6166746572), .int .int64 0), ((be 4 0x74797065), .str (be 1 0x77))] 5 = true := by decide +kernel

end BoltTx_Commit

namespace BoltTx_Rollback

/-- recordings/TestBoltTx_Rollback.json after the first four events -/
def events : List (Bool × Bytes) :=
  [(true, (be 13 0x0009b21085424547494ea00000)),
   (true, (be 6 0x0002b03f0000)),
   (false, (be 40 0x0024b170a2d016726573756c745f617661696c61626c655f616674657200866669656c6473900000)),
   (false, (be 7 0x0003b170a00000)),
   (true, (be 87 0x0053b210d04e4352454154452028663a464f4f207b613a202231227d292d5b623a544f5d2d3e28633a424152293c2d5b643a46524f4d5d2d28653a42415a292052455455524e20662c20622c20632c20642c2065a00000)),
   (true, (be 6 0x0002b03f0000)),
   (false, (be 50 0x002eb170a2d016726573756c745f617661696c61626c655f616674657201866669656c647395816681628163816481650000)),
   (false, (be 60 0x0038b17195b34e149183464f4fa181618131b552c900c5145682544fa0b34e569183424152a0b552353b568446524f4da0b34e3b918342415aa00000)),
   (false, (be 115 0x006fb170a3857374617473a48c6c6162656c732d616464656403d01572656c6174696f6e73686970732d63726561746564028d6e6f6465732d63726561746564038e70726f706572746965732d73657401d015726573756c745f636f6e73756d65645f61667465720084747970658272770000)),
   (true, (be 16 0x000cb21088524f4c4c4241434ba00000)),
   (true, (be 6 0x0002b03f0000)),
   (false, (be 40 0x0024b170a2d016726573756c745f617661696c61626c655f616674657200866669656c6473900000)),
   (false, (be 7 0x0003b170a00000)),
   (true, (be 86 0x0052b210d04d4d415443482028663a464f4f207b613a202231227d292d5b623a544f5d2d3e28633a424152293c2d5b643a46524f4d5d2d28653a42415a292052455455524e20662c20622c20632c20642c2065a00000)),
   (false, (be 50 0x002eb170a2d016726573756c745f617661696c61626c655f616674657201866669656c647395816681628163816481650000)),
   (true, (be 6 0x0002b03f0000)),
   (false, (be 38 0x0022b170a2d015726573756c745f636f6e73756d65645f616674657200847479706581720000))]

/-- the calls of the test -/
def calls : List (Call KVs) :=
  [.begin,
   .prepare (be 78 0x4352454154452028663a464f4f207b613a202231227d292d5b623a544f5d2d3e28633a424152293c2d5b643a46524f4d5d2d28653a42415a292052455455524e20662c20622c20632c20642c2065),
   .stExec [],
   .rollback,
   .closeStmt,
   .prepare (be 77 0x4d415443482028663a464f4f207b613a202231227d292d5b623a544f5d2d3e28633a424152293c2d5b643a46524f4d5d2d28653a42415a292052455455524e20662c20622c20632c20642c2065),
   .stQuery [],
   .next,
   .closeStmt,
   .close]

/-- what they return -/
def results : List Res :=
  [.done,
   .done,
   .summary [((be 5 0x7374617473), .map [((be 12 0x6c6162656c732d6164646564), .int .int64 3), ((be 21 0x72656c6174696f6e73686970732d63726561746564), .int .int64 2), ((be 13 0x6e6f6465732d63726561746564), .int .int64 3), ((be 14 0x70726f706572746965732d736574), .int .int64 1)]), ((be 21 0x726573756c745f636f6e73756d65645f6166746572), .int .int64 0), ((be 4 0x74797065), .str (be 2 0x7277))],
   .done,
   .done,
   .done,
   .rows [((be 22 0x726573756c745f617661696c61626c655f6166746572), .int .int64 1), ((be 6 0x6669656c6473), .list [.str (be 1 0x66), .str (be 1 0x62), .str (be 1 0x63), .str (be 1 0x64), .str (be 1 0x65)])],
   .eof [((be 21 0x726573756c745f636f6e73756d65645f6166746572), .int .int64 0), ((be 4 0x74797065), .str (be 1 0x72))],
   .done,
   .done]

/-- The handshake and INIT. -/
theorem opens : opening (be 20 0x6060b01700000001000000000000000000000000) (be 4 0x00000001) (be 40 0x0024b201d013476f6c616e674e656f346a426f6c742f312e30a186736368656d65846e6f6e650000) (be 26 0x0016b170a1867365727665728b4e656f346a2f332e342e360000) = true := by decide +kernel

/-- The session. -/
theorem replays : replay events calls results = true := by decide +kernel

/-- `RowsAffected` of the results of `Exec` -/
theorem affected : affects [((be 5 0x7374617473), .map [((be 12 0x6c6162656c732d6164646564), .int .int64 3), ((be 21 0x72656c6174696f6e73686970732d63726561746564), .int .int64 2), ((be 13 0x6e6f6465732d63726561746564), .int .int64 3), ((be 14 0x70726f706572746965732d736574), .int .int64 1)]), ((be 21 0x726573756c745f636f6e73756d65645f6166746572), .int .int64 0), ((be 4 0x74797065), .str (be 2 0x7277))] 5 = true := by decide +kernel

end BoltTx_Rollback

end Bolt.Tests
