# How each property is modelled and proved; read by gen_design.py.
H = {
"C01": "`encOps` (the exact sequence of `Encoder.Write` calls) against the relation `Packs` of Spec/PackStream. Induction on the value (Proofs/EncodeMain). The converse, and what is sent otherwise: `Val.wrapped` (Spec/Wrapped), Proofs/Wrapped.",
"C02": "Case analysis over the ten integer types and the ranges of the encoder; `Packs` and `Framed` as specification.",
"C03": "Length of the payload compared with the length of every `Packs` encoding of the same value, by induction (Proofs/EncodeMin).",
"C04": "C01 composed with C17; `Val.norm` (Spec/Normal) says what a Go type becomes. The failing size classes are Spec/Limits. The converse compares the only reading the decoder can give (`Reads`, `decodePayload_iff`) with the value, by induction on it (Proofs/RoundExact).",
"C05": "Unique readability of `Packs`, by induction on the PackStream value (Proofs/Unique).",
"C06": "`Enc.write`/`Enc.flush` as a state machine over buffer and output, invariant of the fold (Proofs/Framing); specification `Framed`.",
"C07": "Same machine; the invariant bounds each chunk.",
"C08": "`Supported` (Spec/Supported) is a separate recursive description of what must be accepted; induction on the value (Proofs/Accept).",
"C09": "The write fold never emits before the buffer is full (Proofs/Framing, Proofs/Reject).",
"C10": "`Sink` with a budget of bytes after which writes fail; induction on the list of writes.",
"C11": "`Source` is a list of reads. A refinement: reading n bytes from any segmentation is reading n bytes of the concatenation (Proofs/Stream).",
"C12": "Induction on `Framed` (Proofs/Stream, Proofs/Wire).",
"C13": "Induction on `Framed` and the cut point.",
"C14": "Every panic of `decode` is traced to a cause in the payload (Proofs/Decode, Spec/Footprint); the payloads that panic are described exactly by an inductive predicate over the grammar of Spec/Lenient (Spec/Chokes), both directions by induction (Proofs/Chokes).",
"C15": "`decode` recurses on fuel; the result is proved independent of the fuel from the payload length on, and each value consumes a byte.",
"C16": "Induction on `Packs` and the cut (Proofs/Cut); the cuts that are accepted exactly, and what is delivered then, in Proofs/CutExact with Spec/Shorten.",
"C17": "Induction on `Packs` over every width of every size (Proofs/Decode). The converse by induction on the value against `Reads` (Proofs/Understood).",
"C18": "Spec/Meaning gives the value a structure stands for, field by field; then as C17.",
"C19": "`lastWins` as specification; induction on the entries.",
"C20": "The session machine (`World`) with the Bolt server `DB.peer` (arbitrary database): simulation of the call step by step (Proofs/Run, Proofs/Sim*).",
"C21": "As C20; the loop of `All` by induction on the records (Proofs/QueryAll).",
"C22": "Induction on rounds; each round by induction on the records read (Proofs/Round).",
"C23": "As C20, for every position at which the rows are closed (Proofs/Query, Proofs/Pipeline). Counterexamples for every database and position (Props/Drain).",
"C24": "Induction on the queries of the pipeline (Proofs/Pipeline).",
"C25": "Induction on queries and records (Proofs/Pipeline2, Pipeline3).",
"C26": "As C25 at the last position.",
"C27": "Failure handling of `consume` run against the server's failed state (Proofs/Ran, Proofs/Query2).",
"C28": "As C27; specification `innerMost`.",
"C29": "Invariant of every reachable state (Spec/Reach, Proofs/Sane): an open statement is recorded on the connection. Arbitrary peer.",
"C30": "Invariant and a `Quiet` relation (nothing sent, nothing received) over all later histories (Proofs/Quiet*).",
"C31": "As C30.",
"C32": "As C30.",
"C33": "The log of what crossed the socket is examined after the call; arbitrary peer (Proofs/Safety).",
"C34": "`transaction` is proved to stay none in every reachable state; the check itself is proved for the case it is set.",
"C35": "As C34.",
"C36": "As C23, followed by COMMIT or ROLLBACK.",
"C37": "Run against the server; the counterexample computes the blocking read.",
"C38": "Any state in which nothing is unread (Proofs/Blocked).",
"C39": "Run against the server; counterexamples computed.",
"C40": "Unfolding, for all lengths, peers and states.",
"C41": "Proofs/Reject: the encoder's refusal leaves the peer untouched.",
"C42": "Refinement: the concrete history and the abstract client of Spec/Abstract (a database run query by query) return the same results; induction on the history (Proofs/Sim1-5).",
"C43": "Hoare-style triples over all calls: an end of stream or I/O error in the log of the call implies an error result (Proofs/Safety, Safety2).",
"C44": "`initialize` over arbitrary bytes in arbitrary reads (Model/Opening, Proofs/Opening).",
"C45": "As C44.",
"C46": "As C44; the INIT message on the wire is read with `Framed` and `Packs`. From the connection string on (`newBoltConn`) in Props/OpenNeo.",
"C47": "`parseURL` from the parsed URL on; specification in Props/Opening2.",
"C48": "Transition system over goroutine steps (Model/Pool); invariants by induction over executions (Proofs/Pool, PoolSlots).",
"C49": "As C48 (Proofs/PoolOwn).",
"C50": "As C48.",
"C51": "As C48.",
"C52": "As C48.",
"C53": "As C48.",
"C54": "As C48.",
"C55": "A measure on states that every step decreases, and progress when nobody holds a connection.",
"C56": "`rowsAffected` as a function of the metadata; the sum is specified separately.",
"C57": "`columns` as a function of the metadata.",
"C58": "`driverArgsToMap` over `unmarshal`; specification: last binding of each key.",
"C59": "Induction on the chain.",
"C60": "Recorder and player as functions on lists of events; induction on the session (Props/Recorder).",
"C61": "`sqlNext` over `nextNeo`; `unmarshal` recovers the value by C04.",
"C62": "State machine of the log package over all sequences of calls.",
"C63": "Unfolding; counterexample computed.",
"C64": "The rows returned are compared with the log of messages received; arbitrary peer (Proofs/Loops, Calls).",
"C65": "Invariant of reachable states and a triple for every call (Proofs/NoPanic, NoPanic2, Depth).",
"C66": "As C44.",
"C67": "The number of messages still to come bounds the nesting (Proofs/Finite, Count).",
"C68": "Induction on the decoder (Proofs/Received).",
"C69": "Close of a pooled connection and its hand-over on the state of the session; refinement of C42 chained over the users (Proofs/Tenant).",
"C70": "The log of a call that gave a result is computed by inverting its run (Proofs/Confirm).",
"C71": "Close of a pooled connection as for C69; closed statements have no connection, an invariant of the steps (Proofs/Steps), without one nothing is reached (Proofs/Gone); counterexamples in the session and in the pool.",
"C72": "Induction on the chain; the stack is a parameter, so that it occurs once (Props/ErrorText).",
"C73": "Model/Sql on top of the session; C58 for the arguments.",
"C74": "Interface values as nil or a pointer that may be nil (Model/Sql).",
"C75": "The writes of Encode are a list that does not depend on the stream; induction on it (Model/Transient, Proofs/Transient).",
"C76": "Every call is a sequence of sends, receives and closings (Proofs/Steps); an invariant of these (Proofs/WireOrder). Counterexample computed with the executable server (Proofs/Executable).",
"C77": "As C76, with C70 and C33 for what a result implies (Proofs/Silent). Counterexample computed.",
"C78": "A triple for every function about the log it appends (Proofs/Failures); the spec is a grammar of logs (Spec/Failures).",
"C79": "The same triples say which FAILUREs a result's errors report.",
"C80": "Inversion of every decoder function and induction on its fuel; conversely induction on the value read (Proofs/Lenient, spec in Spec/Lenient).",
"C81": "A triple for every function relating failed reads and writes in its log to its result (Proofs/Blame, spec in Spec/Blame); counterexamples computed.",
"C82": "`Enc.encode` on the encoder state with its buffer (Model/Reuse); induction on the values; counterexample computed.",
"C83": "Induction on the messages with C12 for one of them.",
"C84": "A decoder that counts what it allocates, proved to return what the decoder returns (Model/Memory, Proofs/Memory); a potential argument for the bounds.",
"C85": "Model/Reader has readers that return bytes together with an error; simulation of the decoder over `Source` (Props/Reader).",
"C86": "The reading half of the decoder with a clock (Model/Timing); simulation of the decoder without (Props/Timing).",
"C87": "Every call is a sequence of sends and receives, which only append to what was written (Proofs/Steps, Props/Proposal); counterexample computed.",
"C88": "A state machine over the messages sent and received, carried through every function (Proofs/GiveUp, Proofs/OnlyThen); counterexample computed.",
"C89": "C25 for two servers; the function itself for any peer (Props/Summaries).",
"C90": "Induction over the framing of the message cut (Props/Cut).",
"C91": "The expectations of the tests transcribed (Spec/EncoderTest) and compared with the encoder case by case; the chunking by induction over the writes (Proofs/EncoderTest).",
"C92": "Where an error that is not an *errors.Error can come from is followed through every function (Proofs/Bare, the same scheme as Proofs/Blame); the errors of encoder and decoder by structural induction; what a peer can make the decoder return by the steps of a call (Proofs/Steps).",
"C93": "Programs as trees of calls (Spec/Programs), induction over the tree with the simulation of C42; the two examples transcribed (Model/Examples) and stepped through the abstract session.",
"C94": "Invariant relating player and the rest of the recording (Props/Playback, on the lemmas of Props/Recorder).",
"C95": "Inversion of a run to the database's answers, and from them the other runs, by the simulation of C42 (Props/Ways).",
"C96": "Case analysis of the function for any peer; induction over the calls of a walk (Props/PipeRows).",
"C97": "Invariant: every open socket is that of a slot or of a connection with an error (Proofs/PoolSocks, on the slots of C48); counterexample by induction on the number of sockets.",
"C98": "The steps of Close with the lock are always enabled and counted; the holder of the lock as for C53.",
"C99": "Invariant: no more failed calls than closed connections in connRefs; counterexample by induction on the number of attempts.",
"C100": "A finer model of the two calls on one connection (Model/CloseRace); invariants of all schedules; counterexamples computed.",
"C101": "The dump as words between blanks (Spec/Dump); induction over the bytes with the column as parameter.",
"C102": "The opening with its log (Model/OpenLog); erasure of the log, and a relation between two runs that differ in the password (Props/OpenLog).",
"C103": "Deferred calls as an operator on calls (Model/Deferred); simulation of the model without them; evaluation of QueryNeoAll on a stream with one record that cannot be decoded.",
"C104": "Panics as steps of the transition system of C48; an invariant that counts lost slots; counterexample by induction on the number of panics.",
"C105": "The results of C92 and C78 about the messages of one call, and an induction over the attempts of sql.DB (Model/Retry).",
"C106": "Evaluation of the three calls on a connection whose peer says nothing more; induction over the calls of sql.DB.",
"C107": "Evaluation of the calls with a statement open.",
"C108": "The executions of C28 and C38 for the calls of one transaction, and induction over its statements; evaluation for the counterexample.",
"C109": "The execution of Query on an idle connection (Proofs/Query2), induction over the records with C61 for each, and the drain of what is left (Proofs/Query); the open statement of C107 for the calls that follow.",
"C110": "The executions of a statement on a connection (Proofs/Query2, Proofs/Calls) with the loop of C109, and induction over the executions; the drain that finds nothing to read, twice, for the counterexample.",
}
