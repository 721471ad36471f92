#!/usr/bin/env python3
"""Writes lean/Verif/Tests/Traces.lean: the sessions recorded in /repo/recordings, replayed against the model.

usage: gen_traces.py [/repo/recordings]

For each recording the calls the Go test of that name makes are listed below by hand, each with the result the test
expects: `done`, `err` (an error that is not a server failure), or a reference to the messages read (numbered from 0
after the answer to INIT) whose contents are the result. The messages are decoded here, independently of the model.
Not included: SelectStringLimits, SelectSliceLimits, SelectMapLimits (recordings of 130 kB and more).
"""
import json, base64, struct, sys, os

REC = sys.argv[1] if len(sys.argv) > 1 else "/repo/recordings"

class F:  # a float64 as its bits
    def __init__(s, bits): s.bits = bits

class S:  # a structure
    def __init__(s, sig, fields): s.sig, s.fields = sig, fields

def dec(b, i=0):
    m = b[i]
    if m < 0x80: return m, i + 1
    if m >= 0xf0: return m - 256, i + 1
    if m < 0x90: n = m & 15; return b[i+1:i+1+n], i + 1 + n
    if m < 0xa0: return many(b, i + 1, m & 15)
    if m < 0xb0: return pairs(b, i + 1, m & 15)
    if m < 0xc0:
        fs, j = many(b, i + 2, m & 15)
        return S(b[i+1], fs), j
    if m == 0xc0: return None, i + 1
    if m == 0xc1: return F(int.from_bytes(b[i+1:i+9], "big")), i + 9
    if m in (0xc2, 0xc3): return m == 0xc3, i + 1
    if 0xc8 <= m <= 0xcb:
        w = 1 << (m - 0xc8)
        return int.from_bytes(b[i+1:i+1+w], "big", signed=True), i + 1 + w
    for base, kind in ((0xd0, "s"), (0xd4, "l"), (0xd8, "m")):
        if base <= m <= base + 2:
            w = 1 << (m - base)
            n = int.from_bytes(b[i+1:i+1+w], "big"); i += 1 + w
            if kind == "s": return b[i:i+n], i + n
            return (many if kind == "l" else pairs)(b, i, n)
    raise ValueError(hex(m))

def many(b, i, n):
    out = []
    for _ in range(n):
        v, i = dec(b, i); out.append(v)
    return out, i

def pairs(b, i, n):
    out = []
    for _ in range(n):
        k, i = dec(b, i); v, i = dec(b, i); out.append((k, v))
    return dict(out), i

def payload(b):
    out, i = b"", 0
    while True:
        n = int.from_bytes(b[i:i+2], "big"); i += 2
        if n == 0: assert i == len(b); return out
        out += b[i:i+n]; i += n

# Lean terms -------------------------------------------------------------------------------------------------------
def bs(b): return "[]" if not b else "(be %d 0x%s)" % (len(b), b.hex())
def lst(xs): return "[" + ", ".join(xs) + "]"
def kvs(d, f=None): return lst("(%s, %s)" % (bs(k), (f or val)(v)) for k, v in d.items())
def val(v, kind="int64"):
    if v is None: return ".nil"
    if isinstance(v, bool): return ".bool %s" % str(v).lower()
    if isinstance(v, int): return ".int .%s %s" % (kind, v if v >= 0 else "(%d)" % v)
    if isinstance(v, F): return ".float64 0x%x" % v.bits
    if isinstance(v, float): return ".float64 0x%x" % struct.unpack(">Q", struct.pack(">d", v))[0]
    if isinstance(v, str): v = v.encode()
    if isinstance(v, bytes): return ".str %s" % bs(v)
    if isinstance(v, list): return ".list %s" % lst(val(x, kind) for x in v)
    if isinstance(v, dict): return ".map %s" % kvs(v)
    if isinstance(v, Kind): return val(v.v, v.kind)
    fs = v.fields
    if v.sig == 0x4e: return ".node %d %s %s" % (fs[0], lst(map(bs, fs[1])), kvs(fs[2]))
    if v.sig == 0x52: return ".rel %d %d %d %s %s" % (fs[0], fs[1], fs[2], bs(fs[3]), kvs(fs[4]))
    if v.sig == 0x72: return ".unbound %d %s %s" % (fs[0], bs(fs[1]), kvs(fs[2]))
    if v.sig == 0x50: return ".path %s %s %s" % (lst(map(val, fs[0])), lst(map(val, fs[1])), lst("%d" % x if x >= 0 else "(%d)" % x for x in fs[2]))
    raise ValueError(v.sig)

class Kind:
    def __init__(s, kind, v): s.kind, s.v = kind, v

def i(n): return Kind("int", n)        # a Go int
def il(*ns): return Kind("int", list(ns))

def params(d, order):
    """the parameters of the test in the order in which the recorded run visited the map"""
    d = {k.encode(): v for k, v in (d or {}).items()}
    assert sorted(d) == sorted(order), (d, order)
    return {k: d[k] for k in order}

# The tests --------------------------------------------------------------------------------------------------------
# (call, result); ("stQuery", params) etc. Results: "done", "err", ("rows", n), ("row", n), ("eof", n), ("summary", n),
# ("fail", n), ("data", header, [records], summary), ("next", header): `NextPipeline` returns the metadata of the next query's header, which is also the metadata of the new rows, "pipeEnd", ("summaries", [n...])
T = {}
def p(q): return (("prepare", q), "done")
closeStmt, close = (("closeStmt",), "done"), (("close",), "done")
def nx(r): return (("next",), r)
def np(r): return (("nextPipe",), r)

T["TestBoltConn_Close"] = [close]
T["TestBoltConn_SelectOne"] = [(("query", "RETURN 1;", None), ("rows", 0)), nx(("row", 1)), nx(("eof", 2)), close]
T["TestBoltConn_SelectAll"] = [
    (("exec", "CREATE (f:NODE {a: 1}), (b:NODE {a: 2})", None), ("summary", 1, 2)),
    (("queryAll", "MATCH (n:NODE) RETURN n.a ORDER BY n.a", None), ("data", 2, [3, 4], 5)),
    (("exec", "MATCH (n:NODE) DELETE n", None), ("summary", 7, 2)), close]
T["TestBoltConn_Ignored"] = [
    (("exec", "syntax error", {"foo": i(1), "bar": 2.2}), ("fail", 0)),
    (("queryAll", "RETURN 1;", None), ("data", 3, [4], 5)), close]
T["TestBoltConn_IgnoredPipeline"] = [
    (("execPipelineNil", ["syntax error"] * 3), "err"),
    (("queryAll", "RETURN 1;", None), ("data", 0, [1], 2)), close]
BAD = "THIS IS A BAD QUERY AND SHOULD RETURN A FAILURE MESSAGE"
T["TestBoltConn_FailureMessageError"] = [(("exec", BAD, None), ("fail", 0)), close]
T["TestBoltConn_CloseStatementOnError"] = [
    (("query", BAD, None), ("fail", 0)), (("query", "RETURN 1;", None), ("rows", 3)), close]
EX = "CREATE (f:FOO {a: {a}, b: {b}, c: {c}, d: {d}, e: {e}, f: {f}, g: {g}, h: {h}})-[b:BAR]->(c:BAZ)"
EXP = {"a": "foo", "b": i(1), "c": True, "d": None, "e": il(1, 2, 3), "f": 3.4, "g": i(-1), "h": False}
T["TestBoltStmt_SelectOne"] = [p("RETURN 1;"), (("stQuery", None), ("rows", 0)), nx(("row", 1)), nx(("eof", 2)), close]
T["TestBoltStmt_SelectMany"] = [
    p('RETURN 1, 34234.34323, "string", [1, "2", 3, true, null], true, null;'), (("stQuery", None), ("rows", 0)),
    nx(("row", 1)), nx(("eof", 2)), close]
IA = {"a": i(1), "b": 34234.34323, "c": "string", "d": [i(1), "2", i(3), True, None], "e": True, "f": None}
T["TestBoltStmt_InvalidArgs"] = [
    p("CREATE (f:FOO {a: {a}, b: {b}, c: {c}, d: {d}, e: {e}, f: {f}}) RETURN f"), (("stQuery", IA), ("fail", 0)), close]
T["TestBoltStmt_ExecNeo"] = [
    p(EX), (("stExec", EXP), ("summary", 1, 3)), closeStmt, p('MATCH (f:FOO) SET f.a = "bar";'),
    (("stExec", None), ("summary", 3, 0)), closeStmt, p("MATCH (f:FOO)-[b:BAR]->(c:BAZ) DELETE f, b, c"),
    (("stExec", None), ("summary", 5, 3)), close]
T["TestBoltStmt_CreateArgs"] = [
    p("CREATE (f:FOO {a: {a}, b: {b}, c: {c}, d: {d}, e: {e}, f: {f}}) RETURN f.a, f.b, f.c, f.d, f.e, f.f"),
    (("stQuery", dict(IA, d=il(1, 2, 3))), ("rows", 0)), nx(("row", 1)), closeStmt, p("MATCH (f:FOO) DELETE f"),
    (("stExec", None), ("summary", 4, 5)), close]
TWO = 'CREATE (f:FOO {a: "1"}), (b:FOO {a: "2"}) RETURN f, b'
FA = "MATCH (f:FOO) RETURN f.a ORDER BY f.a"
DF = "MATCH (f:FOO) DELETE f"
T["TestBoltStmt_Discard"] = [
    p(TWO), (("stQuery", None), ("rows", 0)), closeStmt, p(FA), (("stQuery", None), ("rows", 2)), nx(("row", 3)), closeStmt,
    p(FA), (("stQuery", None), ("rows", 6)), nx(("row", 7)), nx(("row", 8)), closeStmt, p(DF),
    (("stExec", None), ("summary", 11, 2)), close]
T["TestBoltStmt_Failure"] = [
    p(TWO), (("stQuery", None), ("rows", 0)), closeStmt, p("This is an invalid query"), (("stQuery", None), ("fail", 2)),
    closeStmt, p(FA), (("stQuery", None), ("rows", 4)), nx(("row", 5)), closeStmt,
    p(FA), (("stQuery", None), ("rows", 8)), nx(("row", 9)), nx(("row", 10)), closeStmt, p(DF),
    (("stExec", None), ("summary", 13, 2)), close]
MIX = 'CREATE (f:FOO {a: "1"})-[b:TO]->(c:BAR)<-[d:FROM]-(e:BAZ) RETURN f, b, c, d, e'
DM = "MATCH (f:FOO)-[b:TO]->(c:BAR)<-[d:FROM]-(e:BAZ) DELETE f, b, c, d, e"
T["TestBoltStmt_MixedObjects"] = [
    p(MIX), (("stQuery", None), ("rows", 0)), nx(("row", 1)), closeStmt, p(DM), (("stExec", None), ("summary", 4, 5)), close]
T["TestBoltStmt_Path"] = [
    p('CREATE path=(f:FOO {a: "1"})-[b:TO]->(c:BAR)<-[d:FROM]-(e:BAZ) RETURN path'), (("stQuery", None), ("rows", 0)),
    nx(("row", 1)), closeStmt, p(DM), (("stExec", None), ("summary", 4, 5)), close]
T["TestBoltStmt_SingleRel"] = [
    p("CREATE (f:FOO)-[b:BAR {a: {a}, b: {b}, c: {c}, d: {d}, e: {e}, f: {f}, g: {g}, h: {h}}]->(c:BAZ) return b"),
    (("stQuery", {"a": "foo", "b": 2**63 - 1, "c": True, "d": None, "e": [1, 2, 3], "f": 3.4,
                  "g": Kind("int32", 2**31 - 1), "h": False}), ("rows", 0)),
    nx(("row", 1)), closeStmt, p("MATCH (f:FOO)-[b:BAR]->(c:BAZ) DELETE f, b, c"), (("stExec", None), ("summary", 4, 3)), close]
T["TestBoltStmt_SingleNode"] = [
    p("CREATE (f:FOO {a: {a}, b: {b}, c: {c}, d: {d}, e: {e}, f: {f}, g: {g}, h: {h}}) return f"),
    (("stQuery", dict(EXP, e=[1, 2, 3])), ("rows", 0)), nx(("row", 1)), closeStmt, p(DF), (("stExec", None), ("summary", 4, 1)), close]
T["TestBoltStmt_SelectIntLimits"] = [
    p("RETURN {min64} as min64, {min32} as min32, {min16} as min16, {min8} as min8, -16, {max8} as max8, {max16} as max16, {max32} as max32, {max64} as max64"),
    (("stQuery", {"min64": i(-2**63), "min32": i(-2**31), "min16": i(-2**15), "min8": i(-128), "max8": i(127),
                  "max16": i(2**15 - 1), "max32": i(2**31 - 1), "max64": i(2**63 - 1)}), ("rows", 0)),
    nx(("row", 1)), nx(("eof", 2)), close]
T["TestBoltStmt_ManyChunks"] = [
    (("setChunkSize", 10), "done"),
    p('RETURN "1 2 3 4 5 6 7 8 9 10" as a,  "1 2 3 4 5 6 7 8 9 10" as b, "1 2 3 4 5 6 7 8 9 10" as c'),
    (("stQuery", None), ("rows", 0)), nx(("row", 1)), nx(("eof", 2)), close]
PE = ["CREATE (%s:%s {a: {a}, b: {b}})" % x for x in (("f", "FOO"), ("b", "BAR"), ("c", "BAZ"))]
PQ = ["CREATE (%s:%s {a: {a}, b: {b}}) RETURN %s" % x for x in (("f", "FOO", "f"), ("b", "BAR", "b"), ("c", "BAZ", "c"))]
PP = [{"a": i(1), "b": "two"}, {"a": i(2), "b": "three"}, {"a": i(3), "b": "four"}]
D3 = "MATCH (f:FOO), (b:BAR), (c:BAZ) DELETE f, b, c"
SEL = "MATCH (f:FOO), (b:BAR), (c:BAZ) return f, b, c;"
T["TestBoltStmt_PipelineExec"] = [
    (("preparePipe", PE), "done"), (("stExecPipe", PP), ("summaries", [1, 3, 5], 1)), closeStmt, p(SEL),
    (("stQuery", None), ("rows", 6)), nx(("row", 7)), closeStmt, p(D3), (("stExec", None), ("summary", 10, 3)), close]
T["TestBoltStmt_PipelineQuery"] = [
    (("preparePipe", PQ), "done"), (("stQueryPipe", PP), ("rows", 0)), np(("row", 1)), np(("next", 3)), np(("row", 4)),
    np(("next", 6)), np(("row", 7)), np("pipeEnd"), (("closeRows",), "done"), closeStmt, p(D3),
    (("stExec", None), ("summary", 10, 3)), close]
T["TestBoltStmt_PipelineQueryCloseBeginning"] = [
    (("preparePipe", PQ), "done"), (("stQueryPipe", PP), ("rows", 0)), (("closeRows",), "done"), closeStmt, p(D3),
    (("stExec", None), ("summary", 10, 3)), close]
T["TestBoltStmt_PipelineQueryCloseMiddle"] = [
    (("preparePipe", PQ), "done"), (("stQueryPipe", PP), ("rows", 0)), np(("row", 1)), np(("next", 3)),
    (("closeRows",), "done"), closeStmt, p(D3), (("stExec", None), ("summary", 10, 3)), close]
RD = 'MATCH (f:FOO {a: "1"})-[b:TO]->(c:BAR)<-[d:FROM]-(e:BAZ) RETURN f, b, c, d, e'
T["TestBoltTx_Commit"] = [
    (("begin",), "done"), p(MIX), (("stExec", None), ("summary", 4, 5)), (("commit",), "done"), closeStmt, p(RD),
    (("stQuery", None), ("rows", 7)), nx(("row", 8)), closeStmt, p(DM), (("stExec", None), ("summary", 11, 5)), close]
T["TestBoltTx_Rollback"] = [
    (("begin",), "done"), p(MIX), (("stExec", None), ("summary", 4, 5)), (("rollback",), "done"), closeStmt, p(RD),
    (("stQuery", None), ("rows", 7)), nx(("eof", 8)), closeStmt, close]

# Recordings no test in the repository uses any more: calls that fit them
D2 = "MATCH (f:FOO)-[b:BAR]->(c:BAZ) DELETE f, b, c"
T["TestBoltConn_ExecNeo"] = [
    (("exec", EX, EXP), ("summary", 1, 3)), (("exec", 'MATCH (f:FOO) SET f.a = "bar";', None), ("summary", 3, 0)),
    (("exec", D2, None), ("summary", 5, 3)), close]
T["TestBoltConn_PipelineExec"] = [
    (("execPipe", PE, PP), ("summaries", [1, 3, 5], 1)), p(SEL), (("stQuery", None), ("rows", 6)), nx(("row", 7)), closeStmt,
    (("exec", D3, None), ("summary", 10, 3)), close]
T["TestBoltConn_PipelineQuery"] = [
    (("queryPipe", PQ, PP), ("rows", 0)), np(("row", 1)), np(("next", 3)), np(("row", 4)),
    np(("next", 6)), np(("row", 7)), np("pipeEnd"), (("closeRows",), "done"), (("exec", D3, None), ("summary", 10, 3)), close]

# Output -----------------------------------------------------------------------------------------------------------
def emit(name, steps):
    evs = [(e["IsWrite"], base64.b64decode(e["Event"])) for e in json.load(open(os.path.join(REC, name + ".json")))]
    assert [w for w, _ in evs[:4]] == [True, False, True, False]
    head, evs = evs[:4], evs[4:]
    reads = [dec(payload(b))[0] for w, b in evs if not w]
    runs = [dec(payload(b))[0].fields for w, b in evs if w and dec(payload(b))[0].sig == 0x10]
    runs = [r for r in runs if r[0] not in (b"BEGIN", b"COMMIT", b"ROLLBACK")]
    nxt = iter(runs)
    def prm(d):
        return kvs(params(d, list(next(nxt)[1])))
    def md(n): return kvs(reads[n].fields[0])
    def rec(n): return lst(map(val, reads[n].fields[0]))
    calls, results = [], []
    for c, r in steps:
        k = c[0]
        if k in ("exec", "query", "queryAll"): t = ".%s %s %s" % (k, bs(c[1].encode()), prm(c[2]))
        elif k in ("execPipe", "queryPipe"): t = ".%s %s" % (k, lst("(%s, %s)" % (bs(q.encode()), prm(x)) for q, x in zip(c[1], c[2])))
        elif k == "prepare": t = ".prepare %s" % bs(c[1].encode())
        elif k == "preparePipe": t = ".preparePipe %s" % lst(bs(q.encode()) for q in c[1])
        elif k in ("stExec", "stQuery"): t = ".%s %s" % (k, prm(c[1]))
        elif k in ("stExecPipe", "stQueryPipe"): t = ".%s %s" % (k, lst(prm(x) for x in c[1]))
        elif k == "setChunkSize": t = ".setChunkSize %d" % c[1]
        elif k == "execPipelineNil": t = None
        else: t = "." + k
        if r == "done": x = ".done"
        elif r == "err": x = ".localError"
        elif r == "pipeEnd": x = ".pipeEnd"
        elif r[0] in ("rows", "eof"): x = ".%s %s" % (r[0], md(r[1]))
        elif r[0] == "summary": x = ".summary %s" % md(r[1])
        elif r[0] == "fail": x = ".failure %s" % md(r[1])
        elif r[0] == "row": x = ".row %s" % rec(r[1])
        elif r[0] == "data": x = ".data %s %s %s" % (lst(map(rec, r[2])), md(r[1]), md(r[3]))
        elif r[0] == "next": x = ".next %s %s" % (md(r[1]), md(r[1]))
        elif r[0] == "summaries": x = ".summaries %s" % lst(map(md, r[1]))
        else: raise ValueError(r)
        if t is None:  # ExecPipeline with nil parameters, which the list of pairs cannot express
            pre = c[1]
        else:
            calls.append(t); results.append(x)
    affected = [(r[1], r[2]) for c, r in steps if r[0] == "summary"] + [(n, r[2]) for c, r in steps if r[0] == "summaries" for n in r[1]]
    short = name.replace("Test", "", 1)
    out = []
    w = out.append
    w("namespace %s\n" % short)
    w("/-- recordings/%s.json after the first four events -/" % name)
    w("def events : List (Bool × Bytes) :=\n  [%s]\n" % ",\n   ".join("(%s, %s)" % (str(x).lower(), bs(b)) for x, b in evs))
    w("/-- the calls of the test -/")
    w("def calls : List (Call KVs) :=\n  [%s]\n" % ",\n   ".join(calls))
    w("/-- what they return -/")
    w("def results : List Res :=\n  [%s]\n" % ",\n   ".join(results))
    w("/-- The handshake and INIT. -/")
    w("theorem opens : opening %s %s %s %s = true := by decide +kernel\n" % tuple(bs(b) for _, b in head))
    if steps[0][0][0] == "execPipelineNil":
        w("/-- `ExecPipeline` with three queries and no parameters fails, and the rest of the session is as recorded. -/")
        w("theorem replays : replayAfter (execPipeline tape (closeN tape 1) %s []) events calls results = true := by decide +kernel\n" % lst(bs(q.encode()) for q in steps[0][0][1]))
    else:
        w("/-- The session. -/")
        w("theorem replays : replay events calls results = true := by decide +kernel\n")
    if affected:
        w("/-- `RowsAffected` of the results of `Exec` -/")
        w("theorem affected : %s := by decide +kernel\n" % " ∧ ".join("affects %s %d = true" % (md(n), a) for n, a in affected))
    w("end %s\n" % short)
    return "\n".join(out)

HEAD = """import Verif.Tests.Tape

/-!
# The sessions recorded in /repo/recordings

Written by tools/gen_traces.py. Tests of the model, not proofs: each theorem evaluates the model on one recorded session.
-/

namespace Bolt.Tests

set_option maxRecDepth 100000

"""
missing = sorted(set(f[:-5] for f in os.listdir(REC) if f.endswith(".json")) - set(T))
print("not replayed:", missing)
with open(os.path.join(os.path.dirname(__file__), "../lean/Verif/Tests/Traces.lean"), "w") as f:
    f.write(HEAD + "\n".join(emit(n, T[n]) for n in sorted(T)) + "\nend Bolt.Tests\n")
