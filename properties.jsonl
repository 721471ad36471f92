{"id": "C01", "title": "Marshalled bytes are valid PackStream for the value", "statement": "Whenever encoding a value succeeds, the message payload it produces is a well-formed PackStream encoding of exactly that value: null, booleans, integers, floats (bit for bit), strings, lists, maps and structures, nested to any depth, with the marker bytes and big-endian unsigned size fields of the PackStream specification.", "quantifier": "every Go value of a supported type: every nesting depth, every string/list/map/struct size up to the format limits, every map iteration order", "why_tests_cant": "the value space is infinite and recursive; tests check a few sizes at one nesting level", "anchors": ["encoding/encoder.go: Encoder.encode, encodeInt, encodeFloat, encodeString, encodeSlice, encodeMap, encodeStructure", "structures/**: Signature, AllFields"]}
{"id": "C02", "title": "Every Go integer keeps its numeric value on the wire", "statement": "Encoding an integer of any Go integer type either puts exactly that number on the wire or returns an error; no value is silently changed.", "quantifier": "all ten Go integer types and every value of each", "why_tests_cant": "2^64 values per type; the failing region (uint above 2^63-1) is never sampled", "anchors": ["encoding/encoder.go: Encoder.encode (int cases), encodeInt"]}
{"id": "C03", "title": "Integers and sizes use the shortest encoding", "statement": "The encoder always picks the shortest PackStream form of an integer, and the shortest size header for strings, lists, maps and structures ('transmitted over the wire with as few bytes as possible').", "quantifier": "every int64 and every collection size", "why_tests_cant": "boundaries of every width class times every value; only boundaries are sampled", "anchors": ["encoding/encoder.go: encodeInt, encodeString, encodeSlice, encodeMap, encodeStructure", "doc.go"]}
{"id": "C04", "title": "Marshal then Unmarshal returns the same value", "statement": "Unmarshalling the bytes Marshal returned for a value gives back that value (with every integer as int64, every float as float64 and every slice as []interface{}).", "quantifier": "every supported, decodable value of any depth and size", "why_tests_cant": "infinite recursive domain; the code is wrong on size classes 128-255, 32768-65535 and >= 2^31 that the tests skip", "anchors": ["encoding/encoder.go: Marshal", "encoding/decoder.go: Unmarshal, Decoder.Decode"]}
{"id": "C05", "title": "The encoding is unambiguous", "statement": "Two values that put the same payload on the wire denote the same PackStream value, and no payload is a proper prefix of another, so any conforming server reads back exactly what the caller passed.", "quantifier": "every pair of encodable values", "why_tests_cant": "a statement about all pairs of values", "anchors": ["encoding/encoder.go: Encoder.encode"]}
{"id": "C06", "title": "Chunked output carries exactly the payload", "statement": "The bytes Encode writes to the stream are a sequence of length-prefixed non-empty chunks ended by a zero-length chunk, and the concatenation of the chunks is exactly the message payload.", "quantifier": "every value and every chunk size, hence every alignment of writes against chunk boundaries", "why_tests_cant": "chunk boundaries fall anywhere relative to the individual writes; tests use one chunk size and short messages", "anchors": ["encoding/encoder.go: Encoder.Write, flush, Encode", "conn.go: SetChunkSize"]}
{"id": "C07", "title": "No chunk is larger than the configured chunk size", "statement": "After SetChunkSize(n) no chunk written to the stream is longer than n bytes.", "quantifier": "every value, every n", "why_tests_cant": "depends on how every string length aligns with n", "anchors": ["encoding/encoder.go: Encoder.Write, flush", "conn.go: SetChunkSize"]}
{"id": "C08", "title": "A value that cannot be encoded is reported, wherever it is nested", "statement": "If a value contains, at any depth, something the encoder does not support (an unsupported type, a uint64 above 2^63-1, an oversized string or collection), Encode returns an error; if it contains none, Encode fails only when the underlying writer fails.", "quantifier": "every value of any depth, every position of the unsupported part", "why_tests_cant": "every position in every shape of value", "anchors": ["encoding/encoder.go: Encoder.encode and all encode* functions"]}
{"id": "C09", "title": "A rejected value leaves the stream untouched", "statement": "When Encode rejects a value, no byte of the message has been written to the stream, so the connection stays usable.", "quantifier": "every value with an unsupported part at any position, every chunk size", "why_tests_cant": "depends on how many bytes precede the unsupported part", "anchors": ["encoding/encoder.go: Encoder.Write, Encode"]}
{"id": "C10", "title": "A failed write is never reported as success", "statement": "If the underlying stream fails on any write during Encode, Encode returns an error, and what reached the stream is a prefix of the full framed message.", "quantifier": "every value, every chunk size, every point at which the stream fails", "why_tests_cant": "every failure point of every message", "anchors": ["encoding/encoder.go: Encoder.Write, flush, Encode"]}
{"id": "C11", "title": "Decoding does not depend on how the network splits the bytes", "statement": "Decode returns the same result for the same byte stream whatever the sizes of the individual reads, and consumes the same bytes.", "quantifier": "every byte stream and every way to split it into non-empty reads", "why_tests_cant": "exponentially many splits of every stream", "anchors": ["encoding/decoder.go: Decoder.read, readData"]}
{"id": "C12", "title": "One Decode consumes exactly one message", "statement": "Decoding a framed message consumes exactly the bytes of that message, whatever follows it and even when its payload is malformed, so the next Decode starts at the next message.", "quantifier": "every framed message, every chunking of it, every continuation of the stream", "why_tests_cant": "all chunkings and all malformed payloads", "anchors": ["encoding/decoder.go: Decoder.read, Decode"]}
{"id": "C13", "title": "A truncated stream never yields a value", "statement": "If the stream ends anywhere before the end-of-message marker, Decode returns an error and no value.", "quantifier": "every framed message and every cut point", "why_tests_cant": "every cut point of every message", "anchors": ["encoding/decoder.go: Decoder.read, readData"]}
{"id": "C14", "title": "Decoding never panics", "statement": "Unmarshal/Decode return a value or an error on any input bytes; they never panic.", "quantifier": "every byte string", "why_tests_cant": "all byte strings; panics hide in signed size fields and unchecked type assertions", "anchors": ["encoding/decoder.go: decode, decodeSlice, decodeNode, decodeRelationship, decodePath, decodeUnboundRelationship", "encoding/util.go: sliceInterfaceToInt"]}
{"id": "C15", "title": "Decoding terminates with work bounded by the input", "statement": "Decode terminates on every input; every nested value it reads consumes at least one byte of the payload, so nesting depth and number of values read are at most the number of payload bytes.", "quantifier": "every byte string", "why_tests_cant": "termination over all inputs", "anchors": ["encoding/decoder.go: decode, decodeSlice, decodeMap, decodeStruct"]}
{"id": "C16", "title": "A payload cut short is reported as an error", "statement": "If a well-framed message holds only a proper prefix of the encoding of a value, decoding reports an error instead of returning a value.", "quantifier": "every encodable value and every proper prefix of its payload", "why_tests_cant": "every cut of every payload", "anchors": ["encoding/decoder.go: decode (string cases use buffer.Next)"]}
{"id": "C17", "title": "Every conforming server encoding is understood", "statement": "Any well-formed PackStream encoding of a value, minimal or not, is decoded to that value, and decoding stops exactly at its end.", "quantifier": "every PackStream value and every valid encoding of it (including non-minimal ones)", "why_tests_cant": "servers may choose any of several encodings at every nested position", "anchors": ["encoding/decoder.go: decode"]}
{"id": "C18", "title": "Nodes, relationships and paths arrive intact", "statement": "A node, relationship, unbound relationship or path structure sent by the server is delivered as graph.Node, Relationship, UnboundRelationship or Path with every identity, label, type, property and sequence number in its own field.", "quantifier": "all field contents, any nesting of structures in lists, maps and records", "why_tests_cant": "unbounded contents; swapped fields of equal type are easy to miss", "anchors": ["encoding/decoder.go: decodeNode, decodeRelationship, decodePath, decodeUnboundRelationship", "structures/graph/*.go"]}
{"id": "C19", "title": "Maps: the last value for a repeated key wins and no entry is lost", "statement": "A decoded map binds every key that occurs in the message to the value of its last occurrence and has no other key.", "quantifier": "every list of entries with any repetitions", "why_tests_cant": "all entry lists", "anchors": ["encoding/decoder.go: decodeMap"]}
{"id": "C20", "title": "ExecNeo returns the result of its own query and leaves the session in step", "statement": "On a live connection with no open statement, ExecNeo sends exactly RUN(query, params) and PULL_ALL; it returns the summary of that query when the server runs it, the server's failure otherwise, and afterwards no response is left unread and the server is ready.", "quantifier": "every query, parameters, server outcome (success, failure at RUN, failure while streaming, any number of records)", "why_tests_cant": "all server outcomes and record counts", "anchors": ["conn.go: ExecNeo, sendRunPullAllConsumeAll, consume, consumeAll, ackFailure", "stmt.go: ExecNeo"]}
{"id": "C21", "title": "QueryNeoAll returns exactly the rows of its own query", "statement": "On a live connection with no open statement, QueryNeoAll returns the records the server streams for that query, in order, without loss or duplication, together with the query's header and summary metadata, and leaves the session in step.", "quantifier": "every query, parameters, number and content of rows", "why_tests_cant": "unbounded result sets", "anchors": ["conn.go: QueryNeoAll, queryNeo", "rows.go: All, NextNeo, Close"]}
{"id": "C22", "title": "Rows of a prepared statement stream in order and the statement is reusable", "statement": "QueryNeo on a prepared statement returns rows; successive NextNeo calls return the server's records in order and then io.EOF with the summary; after closing the rows at any point the statement can run again and gets its own results.", "quantifier": "every record list, every point at which the rows are closed, any number of re-executions", "why_tests_cant": "all interleavings of NextNeo/Close with all result sizes", "anchors": ["stmt.go: QueryNeo, queryNeo, Close", "rows.go: NextNeo, Close"]}
{"id": "C23", "title": "Closing rows early drains exactly the responses of their own query", "statement": "Closing rows before the end discards exactly the remaining responses of the open query (or of the remaining queries of the pipeline) and nothing else, so the next query on the connection reads its own responses.", "quantifier": "every number of queries in the pipeline, every current position, every number of unread records", "why_tests_cant": "counting errors only show at particular positions", "anchors": ["rows.go: Close", "conn.go: consumeAllMultiple"]}
{"id": "C24", "title": "ExecPipeline returns one result per query, in order", "statement": "When all queries of a pipeline succeed, ExecPipeline returns as many results as there are queries, the i-th being the summary of the i-th query, with all messages sent before the first response is read.", "quantifier": "every number of queries and every result sizes", "why_tests_cant": "unbounded pipelines", "anchors": ["conn.go: ExecPipeline", "stmt.go: ExecPipeline"]}
{"id": "C25", "title": "QueryPipeline delivers every query's rows under the right rows object", "statement": "Iterating NextPipeline over the rows returned by QueryPipeline yields, for each query in order, exactly its records and then the rows object (with header metadata) of the next query.", "quantifier": "every number of queries and every record lists", "why_tests_cant": "unbounded pipelines and results", "anchors": ["conn.go: QueryPipeline", "stmt.go: QueryPipeline", "rows.go: NextPipeline"]}
{"id": "C26", "title": "NextPipeline reports the end with io.EOF", "statement": "When all rows of all queries of a pipeline have been consumed, NextPipeline returns io.EOF, as documented.", "quantifier": "every pipeline", "why_tests_cant": "documented contract for every pipeline", "anchors": ["rows.go: PipelineRows.NextPipeline, boltRows.NextPipeline"]}
{"id": "C27", "title": "A server failure leaves the connection usable", "statement": "After the server reports a failure for a request, whatever was pipelined behind it is skipped, the failure is acknowledged, and the next query on the connection gets its own responses.", "quantifier": "every API call, every position of the failure in a pipeline of any length", "why_tests_cant": "all failure positions and pipeline lengths", "anchors": ["conn.go: consume, ackFailure, reset, ExecPipeline, QueryNeo, QueryNeoAll", "rows.go: NextNeo, Close"]}
{"id": "C28", "title": "A server failure reaches the caller as its FAILURE message", "statement": "When the server answers a request with a failure, the API call returns a non-nil error whose InnerMost is the FAILURE message with the server's metadata.", "quantifier": "every failure metadata, every API call", "why_tests_cant": "all API paths times all failure points", "anchors": ["conn.go: consume", "errors/errors.go: Wrap, InnerMost", "doc.go"]}
{"id": "C29", "title": "At most one open statement per connection", "statement": "While a statement (or the rows of a direct query) is open on a connection, every other Prepare/Query/Exec/Begin on that connection returns an error and sends nothing.", "quantifier": "every reachable connection state and every API call", "why_tests_cant": "all histories", "anchors": ["conn.go: prepare, PreparePipeline, queryNeo, QueryPipeline, Exec*, Begin"]}
{"id": "C30", "title": "A closed connection sends nothing", "statement": "After Close succeeded on a (non-pooled) connection, every query, prepare and begin on it returns an error, further Close calls return nil, and nothing more is written to or read from the socket.", "quantifier": "every history before and after Close", "why_tests_cant": "all histories", "anchors": ["conn.go: Close, prepare, queryNeo, ExecNeo, Begin ..."]}
{"id": "C31", "title": "Close is idempotent for rows and statements", "statement": "Closing rows or a statement that is already closed returns nil and has no effect; using closed rows or a closed statement returns an error and sends nothing.", "quantifier": "every history", "why_tests_cant": "all histories", "anchors": ["rows.go: Close, NextNeo, NextPipeline", "stmt.go: Close, ExecNeo, QueryNeo, ExecPipeline, QueryPipeline"]}
{"id": "C32", "title": "A finished transaction stays finished", "statement": "Once Commit or Rollback has returned nil, any further Commit or Rollback on that transaction returns an error and sends nothing.", "quantifier": "every history", "why_tests_cant": "all histories", "anchors": ["tx.go: Commit, Rollback"]}
{"id": "C33", "title": "Commit and Rollback report success only if the server confirmed", "statement": "Commit (Rollback) returns nil only if the server answered SUCCESS to RUN COMMIT (RUN ROLLBACK) and to the following PULL_ALL; and on a connection in step it sends exactly these two messages.", "quantifier": "every server behaviour, including malicious ones", "why_tests_cant": "all server behaviours", "anchors": ["tx.go: Commit, Rollback", "conn.go: sendRunPullAllConsumeSingle"]}
{"id": "C34", "title": "At most one transaction per connection", "statement": "While a transaction is open on a connection, Begin returns an error and sends nothing.", "quantifier": "every history of API calls", "why_tests_cant": "all histories; the unit tests never begin twice", "anchors": ["conn.go: Begin", "tx.go: newTx"]}
{"id": "C35", "title": "Closing a connection ends its open transaction", "statement": "Closing a connection (or returning a pooled one) with an open transaction rolls that transaction back.", "quantifier": "every history of API calls", "why_tests_cant": "all histories", "anchors": ["conn.go: Close, Begin", "driver.go: reclaim"]}
{"id": "C36", "title": "Committing with open rows first clears them", "statement": "Commit or Rollback while rows are still open on the connection drains those rows, then sends its own message and reads its own answer.", "quantifier": "every kind of open rows, every number of unread records", "why_tests_cant": "all read positions", "anchors": ["tx.go: Commit, Rollback", "stmt.go: Close"]}
{"id": "C37", "title": "Closing rows after an error releases the connection", "statement": "If reading a row fails because the server reported a failure, closing the rows succeeds without waiting for further messages and releases the connection for the next query.", "quantifier": "every position of the failure in the stream", "why_tests_cant": "failure positions; hanging is invisible to recorded tests", "anchors": ["rows.go: NextNeo, Close", "conn.go: QueryNeoAll"]}
{"id": "C38", "title": "Reading past the end is answered locally", "statement": "After NextNeo returned io.EOF, further NextNeo calls do not wait for the server and do not take another request's response.", "quantifier": "every result", "why_tests_cant": "blocking behaviour", "anchors": ["rows.go: NextNeo"]}
{"id": "C39", "title": "A failed QueryPipeline leaves no open statement", "statement": "If QueryPipeline on a connection returns an error, the connection has no open statement and can be used for the next query.", "quantifier": "every reason for the failure: parameter count, encoding, server failure", "why_tests_cant": "all failure reasons", "anchors": ["conn.go: QueryPipeline"]}
{"id": "C40", "title": "Pipelines check the number of parameters before sending", "statement": "ExecPipeline and QueryPipeline with a number of parameter maps different from the number of queries return an error and send nothing.", "quantifier": "every pair of lengths", "why_tests_cant": "all lengths", "anchors": ["stmt.go: ExecPipeline, QueryPipeline"]}
{"id": "C41", "title": "A rejected parameter leaves the session in step", "statement": "If a query's parameters cannot be encoded, the call returns an error and the connection remains in step: the next query reads its own responses.", "quantifier": "every API call, every position of the bad parameters in a pipeline", "why_tests_cant": "positions of bad parameters in pipelines", "anchors": ["stmt.go: ExecPipeline", "conn.go: sendRun, queryNeo"]}
{"id": "C42", "title": "Every session history keeps request and response paired", "statement": "For every sequence of API calls, each call's outcome is that of the abstract database executing the queries in order: no call ever returns data or status that belongs to another call's query.", "quantifier": "all finite histories of API calls and all database behaviours", "why_tests_cant": "histories are unbounded", "anchors": ["conn.go", "stmt.go", "rows.go", "tx.go"]}
{"id": "C43", "title": "Network errors surface as errors", "statement": "If the connection breaks (end of stream, timeout, reset) at any point while a call waits for responses, the call returns an error, never a success.", "quantifier": "every API call and every point at which the connection breaks", "why_tests_cant": "all crash points", "anchors": ["conn.go: Read, consume, consumeAll, ackFailure, reset"]}
{"id": "C44", "title": "A connection is only opened after handshake and INIT succeeded", "statement": "OpenNeo returns a connection only if the server agreed on a protocol version and answered INIT with SUCCESS; otherwise it returns an error.", "quantifier": "every server behaviour", "why_tests_cant": "all server behaviours", "anchors": ["conn.go: initialize, handShake, sendInit", "driver.go: handShake"]}
{"id": "C45", "title": "The handshake does not depend on how the network splits the version reply", "statement": "The handshake succeeds exactly when the four version bytes arrive and are not zero, whatever the sizes of the individual reads.", "quantifier": "every reply and every split into reads", "why_tests_cant": "short reads do not happen on loopback", "anchors": ["conn.go: handShake"]}
{"id": "C46", "title": "Credentials are sent exactly as given", "statement": "The INIT message carries the client id and, when a user name is given, scheme basic with that user and password; without a user it carries scheme none and no credentials.", "quantifier": "every user name and password", "why_tests_cant": "all strings", "anchors": ["structures/messages/init.go: NewInitMessage", "conn.go: parseURL, sendInit"]}
{"id": "C47", "title": "Connection strings are interpreted as documented", "statement": "Only scheme bolt is accepted (case-insensitive), a user without a password is rejected, timeout must be an integer number of seconds and defaults to 60, TLS is used exactly when the tls option starts with t/T or is 1, and TLS options are ignored without TLS.", "quantifier": "every parsed URL", "why_tests_cant": "all combinations of options", "anchors": ["conn.go: parseURL, tlsConfig"]}
{"id": "C48", "title": "A pool never hands out more than its maximum", "statement": "At any time at most max connections of a pool are handed out and not yet closed; further OpenPool calls wait.", "quantifier": "every max, every number of goroutines, every interleaving", "why_tests_cant": "schedules", "anchors": ["driver.go: OpenPool, reclaim, createDriverPool"]}
{"id": "C49", "title": "A pooled connection has one user at a time", "statement": "No two clients hold pooled connections that share a socket at the same time.", "quantifier": "every interleaving of OpenPool and Close", "why_tests_cant": "schedules", "anchors": ["driver.go: OpenPool, reclaim"]}
{"id": "C50", "title": "Closing a pooled connection never blocks and returns its slot", "statement": "Close on a connection obtained from a pool never blocks and makes exactly one slot available again.", "quantifier": "every history and interleaving", "why_tests_cant": "schedules", "anchors": ["driver.go: reclaim", "conn.go: Close"]}
{"id": "C51", "title": "Connections handed out by a pool are initialised", "statement": "Every connection OpenPool returns has completed handshake and INIT successfully, on a socket that the driver has not closed.", "quantifier": "every history of successes and failures of the server", "why_tests_cant": "needs a failed initialisation followed by another OpenPool", "anchors": ["driver.go: OpenPool, connectionNilOrClosed, reclaim", "conn.go: initialize"]}
{"id": "C52", "title": "A broken pooled connection is replaced", "statement": "After a connection error, closing the pooled connection puts a fresh connection in its slot; the broken socket is never handed out again.", "quantifier": "every history", "why_tests_cant": "all histories", "anchors": ["driver.go: reclaim"]}
{"id": "C53", "title": "A closed pool opens nothing", "statement": "After Close of the pool returned, every OpenPool returns an error and creates no socket.", "quantifier": "every interleaving", "why_tests_cant": "schedules", "anchors": ["driver.go: boltDriverPool.Close, OpenPool"]}
{"id": "C54", "title": "Closing the pool closes every connection it created", "statement": "After Close of the pool returned nil, every socket the pool ever opened is closed.", "quantifier": "every history", "why_tests_cant": "all histories", "anchors": ["driver.go: boltDriverPool.Close"]}
{"id": "C55", "title": "Pool operations do not deadlock", "statement": "If every client eventually closes its connections, every OpenPool and pool Close call eventually returns.", "quantifier": "every interleaving", "why_tests_cant": "schedules", "anchors": ["driver.go: OpenPool, Close"]}
{"id": "C56", "title": "RowsAffected is the number of created and deleted nodes and relationships", "statement": "RowsAffected returns the sum of nodes and relationships created and deleted reported by the server, 0 when no statistics are present.", "quantifier": "every metadata map", "why_tests_cant": "all metadata shapes", "anchors": ["result.go: RowsAffected, LastInsertId, Metadata"]}
{"id": "C57", "title": "Columns returns the field names in order", "statement": "Columns returns the header's field names in order, and an empty list when the header has none or they are not all strings.", "quantifier": "every header metadata", "why_tests_cant": "all metadata shapes", "anchors": ["rows.go: Columns, Metadata"]}
{"id": "C58", "title": "SQL arguments become one parameter map", "statement": "Arguments passed through database/sql, each a marshalled map, are merged into one parameter map in which a later argument overrides an earlier one; anything else is rejected with an error.", "quantifier": "every argument list", "why_tests_cant": "all argument lists", "anchors": ["util.go: driverArgsToMap"]}
{"id": "C59", "title": "InnerMost finds the root cause", "statement": "InnerMost of an error wrapped any number of times is the innermost error, and Inner undoes one Wrap.", "quantifier": "every wrapping depth", "why_tests_cant": "unbounded depth", "anchors": ["errors/errors.go: New, Wrap, Inner, InnerMost"]}
{"id": "C60", "title": "A recorded session replays", "statement": "Playing back a recording gives the driver the same bytes as the recorded session, as long as it makes the same sequence of reads and writes.", "quantifier": "every session", "why_tests_cant": "all sessions", "anchors": ["recorder.go: Read, Write, record, Close"]}
{"id": "C61", "title": "The SQL row interface returns every column", "statement": "rows.Next stores, for each column, the plain value for scalars and the marshalled bytes (that unmarshal to the value) for lists, maps and graph structures.", "quantifier": "every row", "why_tests_cant": "all rows", "anchors": ["rows.go: Next"]}
{"id": "C62", "title": "Logging level gates output", "statement": "After SetLevel(l) exactly the messages of level l or more severe are printed; unknown levels print nothing.", "quantifier": "every level string and message kind", "why_tests_cant": "all strings", "anchors": ["log/log.go"]}
{"id": "C63", "title": "A pipeline of no queries completes at once", "statement": "ExecPipeline and QueryPipeline of no queries return at once, with no results and without using the connection.", "quantifier": "every peer and every state of a free connection", "why_tests_cant": "all peers and states; a test against a server only sees a timeout", "anchors": ["conn.go: ExecPipeline, QueryPipeline", "stmt.go: ExecPipeline, QueryPipeline"]}
{"id": "C64", "title": "A result is what was received", "statement": "Every row that NextNeo or All returns is a record received, in the order received; All returns them all, and a result is only reported as ended when the server ended it.", "quantifier": "every peer, every state, every number of rows", "why_tests_cant": "all byte streams, also malformed ones", "anchors": ["rows.go: NextNeo, All", "conn.go: consume"]}
{"id": "C65", "title": "No API call panics", "statement": "No call of the API panics, in any order of calls and whatever the server does.", "quantifier": "every peer, every finite sequence of calls", "why_tests_cant": "unbounded sequences, all peers", "anchors": ["conn.go", "stmt.go", "rows.go", "tx.go"]}
{"id": "C66", "title": "A failed open releases the socket", "statement": "When opening a connection fails after the socket was opened, at handshake or INIT, the socket is closed.", "quantifier": "every server behaviour, every split of its bytes", "why_tests_cant": "all server behaviours", "anchors": ["conn.go: initialize, newBoltConn, Close"]}
{"id": "C67", "title": "Every call returns", "statement": "Every call of the API returns: no loop or recursion of the driver goes on without end, whatever the server answers.", "quantifier": "every peer, every state", "why_tests_cant": "non-termination cannot be observed by a test; all server behaviours", "anchors": ["conn.go: ackFailure, reset, Close, consumeAll", "stmt.go: Close", "rows.go: Close, All"]}
{"id": "C68", "title": "Decoded values are ordinary Go values", "statement": "Whatever bytes a server sends, a value that is decoded from them consists of nil, bool, int64, float64, string, []interface{}, map[string]interface{} and the graph and message structures only, at every depth.", "quantifier": "every byte sequence", "why_tests_cant": "all byte sequences, unbounded nesting", "anchors": ["encoding/decoder.go: decode"]}
{"id": "C69", "title": "A pooled connection is clean for its next user", "statement": "When a user of a connection pool closes a connection without an error and the pool hands it to the next user, no statement is open on it, no responses are left unread and no transaction is open: the next user gets the results a new connection would give.", "quantifier": "every number of users, every sequence of calls of each, every database", "why_tests_cant": "unbounded sequences of users and calls; the wrong answer reaches another client than the one who caused it", "anchors": ["conn.go: Close", "driver.go: reclaim, OpenPool", "stmt.go: Close", "rows.go: Close"]}
{"id": "C70", "title": "Results are reported only when the server confirmed them", "statement": "ExecNeo and ExecPipeline return a result only when RUN and PULL_ALL of every query were written and each query was answered by SUCCESS and, after messages that are neither SUCCESS nor FAILURE, by the SUCCESS whose metadata is the result. QueryNeo and QueryPipeline return rows only when their requests were written and the first was answered by the SUCCESS whose metadata the rows show. Begin returns a transaction only after two SUCCESS messages. QueryNeoAll returns rows and a summary without an error only when exactly these were received.", "quantifier": "every peer, every state, every statement and parameters", "why_tests_cant": "all server behaviours and states", "anchors": ["conn.go: ExecNeo, QueryNeo, QueryNeoAll, ExecPipeline, QueryPipeline, Begin", "stmt.go: ExecNeo, QueryNeo, ExecPipeline, QueryPipeline"]}
{"id": "C71", "title": "A pooled connection is dead for its user after Close", "statement": "After a user closed a connection of a pool, no call on it or on anything opened with it sends anything.", "quantifier": "every state, every call", "why_tests_cant": "all states and calls; what is sent reaches the session of another client", "anchors": ["conn.go: Close", "driver.go: reclaim", "stmt.go", "rows.go"]}
{"id": "C72", "title": "The text of an error shows its whole chain", "statement": "The text of an error built with New and Wrap shows the messages of the whole chain from the outside in, each on a line of its own indented by its depth, then the type and text of the error of another package at its root, and then the stack trace of the place where the chain started, once.", "quantifier": "every chain of any length, every message", "why_tests_cant": "unbounded chains", "anchors": ["errors/errors.go: New, Wrap, Error, error"]}
{"id": "C73", "title": "The calls of database/sql do what the Neo calls do", "statement": "Exec and Query of connections and statements behave as ExecNeo and QueryNeo with the map their arguments merge to, and return an error without writing or reading anything when an argument is not the bytes of a map.", "quantifier": "every peer, every state, every list of arguments", "why_tests_cant": "all states and argument lists", "anchors": ["conn.go: Exec, Query", "stmt.go: Exec, Query", "util.go: driverArgsToMap"]}
{"id": "C74", "title": "A call that fails returns nil", "statement": "When a call that returns rows or a statement returns an error, the rows or the statement it returns are nil.", "quantifier": "every peer, every state", "why_tests_cant": "all states and server behaviours; tests look at the error only", "anchors": ["conn.go: Prepare, PrepareNeo, PreparePipeline, Query, QueryNeo, QueryPipeline", "stmt.go: Query, QueryNeo, QueryPipeline"]}
{"id": "C75", "title": "A write error is reported even if later writes succeed", "statement": "Whichever writes of the stream fail, Encode makes no write after the first that fails and returns an error; what it wrote is a prefix of the complete message. It returns nil only when the complete message was written.", "quantifier": "every value, every chunk size, every sequence of failing and succeeding writes", "why_tests_cant": "all combinations of failing writes; a stream that recovers is hard to stage", "anchors": ["encoding/encoder.go: Write, flush, Encode", "conn.go: Write"]}
{"id": "C76", "title": "The bytes on the wire are the messages of the calls", "statement": "The bytes written on a connection are the messages its calls sent, whole and in order, the last possibly cut off; nothing is written behind a message that was cut off.", "quantifier": "every peer, every sequence of calls, every point at which writes fail", "why_tests_cant": "unbounded histories, all points of failure; the damage shows only in what the server makes of the bytes", "anchors": ["conn.go: Write, ExecNeo, QueryNeo, ExecPipeline, QueryPipeline", "encoding/encoder.go: Encode"]}
{"id": "C77", "title": "A late answer is not taken for the answer to a later call", "statement": "When a call gave up because reading its answer failed, no later call on the connection returns that answer as its own.", "quantifier": "every peer, every sequence of calls, every delay", "why_tests_cant": "all interleavings of calls and delayed answers; needs control of the network's timing", "anchors": ["conn.go: Read, consume, ExecNeo, QueryNeo, Begin", "rows.go: NextNeo", "tx.go: Commit, Rollback"]}
{"id": "C78", "title": "Every FAILURE is acknowledged before anything else is sent", "statement": "The message the driver sends next after it received FAILURE is ACK_FAILURE. When that is answered by FAILURE, the next is RESET. Before the answer to either arrives nothing else is sent, and neither is sent at any other time.", "quantifier": "every peer, every state, every sequence of calls", "why_tests_cant": "all server behaviours and unbounded histories; a missing acknowledgement shows only in later calls", "anchors": ["conn.go: consume, ackFailure, reset, consumeAll, sendInit"]}
{"id": "C79", "title": "An error that reports a FAILURE reports one received during that call", "statement": "When a call returns an error whose innermost error is a FAILURE, that FAILURE was received during the call, and the server then confirmed that it executes statements again, or the FAILURE was its answer to RESET.", "quantifier": "every peer, every state, every call", "why_tests_cant": "all server behaviours and states", "anchors": ["conn.go: consume, ackFailure, reset", "rows.go: NextNeo", "stmt.go: ExecNeo, QueryNeo", "errors/errors.go: InnerMost"]}
{"id": "C80", "title": "What is not PackStream is rejected", "statement": "Decode and Unmarshal return a value only when the stream begins with a chunked message whose payload is exactly one PackStream encoding of that value; every other input yields an error.", "quantifier": "every byte string, however it is split into reads", "why_tests_cant": "the space of all inputs; tests decode a handful of valid messages and never invalid ones", "anchors": ["encoding/decoder.go: read, Decode, decode, decodeString, decodeSlice, decodeMap, decodeStruct"]}
{"id": "C81", "title": "An error of the network surfaces as driver.ErrBadConn", "statement": "When reading from or writing to the socket fails during a call, the innermost error of what the call returns is driver.ErrBadConn, and a call returns such an error only when the connection failed it.", "quantifier": "every peer, every sequence of calls, every call, every point of failure", "why_tests_cant": "all points at which the network can fail in all histories; tests never break the connection", "anchors": ["doc.go: 91-93", "conn.go: Read, Write, Close, ackFailure, reset, consume", "errors/errors.go: InnerMost"]}
{"id": "C82", "title": "One Encoder can send many messages", "statement": "Successive calls of Encode on one Encoder write and return what calls on a new Encoder for each value would.", "quantifier": "every sequence of values, every chunk size, every stream", "why_tests_cant": "all sequences including values rejected half way; what a failed call leaves behind shows only in later messages", "anchors": ["encoding/encoder.go: NewEncoder, Write, flush, Encode"]}
{"id": "C83", "title": "One Decoder reads many messages in order, each once", "statement": "The n-th call of Decode on a stream of messages returns what Unmarshal of the n-th message returns, whatever the other messages are and however the stream is split into reads.", "quantifier": "every sequence of messages, malformed ones included, every split into reads", "why_tests_cant": "all sequences and splits; tests decode one message per Decoder", "anchors": ["encoding/decoder.go: read, readData, Decode, Unmarshal", "encoding/encoder.go: Encode"]}
{"id": "C84", "title": "Memory allocated for decoding is proportional to the message", "statement": "The number of elements of all slices the decoder allocates is at most a small constant times the number of bytes of the message.", "quantifier": "every payload, valid or not", "why_tests_cant": "the payloads that announce more than they hold are the ones no test sends, and they exhaust the memory of the test", "anchors": ["encoding/decoder.go: decodeSlice, decodeMap, decodeStruct, decodeNode"]}
{"id": "C85", "title": "Decoding does not depend on how the io.Reader delivers the bytes", "statement": "Two readers that deliver the same bytes and finally the same error make Decode return the same value, or errors with the same cause, also when a reader returns the error together with the last bytes, or returns from a call without bytes.", "quantifier": "every byte string, every io.Reader that keeps to its contract", "why_tests_cant": "all ways a reader may split bytes and combine them with errors; sockets produce few of them in a test", "anchors": ["encoding/decoder.go: read, readData"]}
{"id": "C86", "title": "A call waits for the server no longer than the timeout", "statement": "Reading an answer returns a value or an error within the timeout of the connection, measured from the call.", "quantifier": "every schedule of arriving bytes, every timeout", "why_tests_cant": "all timings of all bytes; tests do not control the clock of the network", "anchors": ["conn.go: Read, SetTimeout, parseURL", "encoding/decoder.go: read, readData", "doc.go: 77"]}
{"id": "C87", "title": "A new connection first proposes version 1 and sends credentials only to a server that agreed", "statement": "The first bytes written are the magic preamble and the proposal of version 1 and no other. INIT, with the credentials, is written only after the server's reply, and not when the reply is a refusal.", "quantifier": "every stream from the server, every split into reads, every point at which writing fails", "why_tests_cant": "all replies and splits; tests talk to servers that agree", "anchors": ["driver.go: 12-26", "conn.go: handShake, initialize, sendInit"]}
{"id": "C88", "title": "A connection on which a failure cannot be cleared is closed", "statement": "When the server answers RESET with anything but SUCCESS, or ACK_FAILURE with something that is neither SUCCESS nor FAILURE, the connection is closed before the call ends. No call other than Close closes it in any other case.", "quantifier": "every peer, every reachable state, every call", "why_tests_cant": "all server behaviours at the third level of failure handling, in every state; tests never reach it", "anchors": ["conn.go: ackFailure, reset, Close", "stmt.go: Close", "rows.go: Close"]}
{"id": "C89", "title": "NextPipeline returns the summary of each query of a pipeline", "statement": "When the records of a query of a pipeline are used up, NextPipeline returns the success metadata of that query (its statistics and type), as documented ('When the rows are completed, returns the success metadata and the next set of rows').", "quantifier": "every pipeline, every database", "why_tests_cant": "no test looks at the metadata NextPipeline returns", "anchors": ["rows.go:246-289", "rows.go:47-51"]}
{"id": "C90", "title": "A message cut off is told from the end of the stream", "statement": "When the server closes the connection between two messages, the innermost error of reading the next one is io.EOF; when it does so within a message, it is not.", "quantifier": "every message, every framing, every place it is cut, every split into reads", "why_tests_cant": "all places of all messages; tests never cut one", "anchors": ["encoding/decoder.go:40-89", "errors/errors.go:53-63"]}
{"id": "C91", "title": "The repository's property tests of the encoder hold for every value", "statement": "For every value of the types encoder_test.go draws from (nil, bool, the ten integer types, float32, float64, string, []bool, []string), what a new Encoder writes is the byte string the test expects, and uint64 values above the largest int64 are rejected.", "quantifier": "every value of these types", "why_tests_cant": "the tests draw a hundred values at random, so lengths beyond a few dozen and most limits between two representations are never drawn", "anchors": ["encoding/encoder_test.go: all tests", "encoding/encoder.go: Encode, Write, flush, encodeInt, encodeFloat, encodeString, encodeSlice"]}
{"id": "C92", "title": "The documented way to the cause of an error does not panic", "statement": "For every error a call of a connection, statement, transaction or rows object returns, `err.(*errors.Error).InnerMost()` gives the innermost error, and when that is a FAILURE of the server `err.(*errors.Error).InnerMost().(messages.FailureMessage).Metadata` gives its metadata, without a panic. The one documented exception is io.EOF at the end of the rows.", "quantifier": "every peer, every state, every call", "why_tests_cant": "the errors of other types appear only for server answers and network states no test produces", "anchors": ["doc.go:84-93", "errors/errors.go:27-63", "conn.go:402-472", "encoding/decoder.go:101-247"]}
{"id": "C93", "title": "The example programs print what the database answered", "statement": "Run on a fresh connection, against every database whose answers have the shape the comments in them announce, examples/quick_n_dirty and examples/slow_n_clean do not panic and print, in order: the number of rows the database says were created, the columns and the two fields of the node, the number of rows created by each of the six queries of the pipeline, every node (path) of the last query, and the number of rows deleted; the connection is closed at the end. More generally, a program that decides on each call by the results of the earlier ones gets what it would get from an abstract session with the database.", "quantifier": "every database with such answers, every chunk size, both orders of the parameter map; every program", "why_tests_cant": "the examples are not run by the tests, and no run covers more than one database", "anchors": ["examples/quick_n_dirty/quick_n_dirty.go", "examples/slow_n_clean/slow_n_clean.go", "README.md"]}
{"id": "C94", "title": "Playback notices a program that does not do what was recorded", "statement": "A program run against a recording sees an error, from a call or from Close, unless it makes the calls that were recorded: a call in the other direction, a call after the last one, a call for more than was transferred, stopping early and writing other bytes are all noticed, and a refused call transfers nothing and does not disturb the recording.", "quantifier": "every recorded session, every place of the departure, every call made there", "why_tests_cant": "the tests that use recordings only replay what they recorded", "anchors": ["recorder.go:72-153"]}
{"id": "C95", "title": "The ways to run a query agree", "statement": "Whatever the database, the ways the driver offers to run the same queries return the same: ExecNeo, a prepared ExecNeo, ExecPipeline and a prepared pipeline the same summaries; QueryNeo with All, with NextNeo, QueryNeoAll, a prepared query, QueryPipeline and a prepared pipeline the same headers, rows and (but for NextPipeline) summaries; and all of them leave the same database behind and the connection usable.", "quantifier": "every database, every list of queries, every parameters that can be sent", "why_tests_cant": "a relation between runs of the driver; tests check each way against one fixed answer", "anchors": ["conn.go: ExecNeo, QueryNeo, QueryNeoAll, ExecPipeline, QueryPipeline, PrepareNeo, PreparePipeline", "stmt.go", "rows.go"]}
{"id": "C96", "title": "NextPipeline reports what was received", "statement": "A call of NextPipeline that returns no error sends nothing, and returns: a row only when it received that record; the step to the next query only when it received the SUCCESS that ends the query and a SUCCESS that starts the next one, with the metadata of the latter; the end only for the last query, when it received its SUCCESS. An error is returned without a row, metadata or rows object. A client that walks through a pipeline hence sees only what was received, in that order.", "quantifier": "every peer (garbled and unexpected messages included), every state, any number of calls", "why_tests_cant": "the tests walk through pipelines of a well-behaved server only", "anchors": ["rows.go:246-289", "conn.go: consume", "encoding/decoder.go:502-513"]}
{"id": "C97", "title": "A pool does not have more sockets open than its maximum", "statement": "At every moment the number of sockets that a pool created with NewDriverPool(connStr, max) has opened and not closed is at most max ('maximum number of open connections').", "quantifier": "every maximum, any number of clients in any order of steps, every behaviour of server and network", "why_tests_cant": "the number of sockets grows with the number of failures over the life of the pool; no test counts them", "anchors": ["driver.go: 68-195", "conn.go: Close, initialize", "doc.go"]}
{"id": "C98", "title": "Closing a pool does not wait for its clients", "statement": "Close of a pool returns without any client having to return a connection or to do anything else.", "quantifier": "every reachable state of the pool, any number of clients, every interleaving", "why_tests_cant": "all interleavings with calls in progress; tests close pools nobody uses", "anchors": ["driver.go: OpenPool, Close"]}
{"id": "C99", "title": "Closing a pool can be repeated until everything is closed", "statement": "When Close of a pool returns an error it can be called again, and goes on with the connections that are still open; after at most as many failures as the pool has connections it returns nil.", "quantifier": "every number of connections, every pattern of failures, every interleaving with clients", "why_tests_cant": "all patterns of failing sockets; tests have no failing sockets", "anchors": ["driver.go: 158-174", "conn.go: 361-400"]}
{"id": "C100", "title": "A connection can be closed while its pool is being closed", "statement": "When a client closes its connection while another goroutine closes the pool, both calls return, neither panics, the socket is closed, and neither returns an error unless closing the socket failed.", "quantifier": "every interleaving of the accesses of the two calls to the connection", "why_tests_cant": "all interleavings; a test run shows one, and hardly ever one in which the calls overlap", "anchors": ["driver.go: 158-195", "conn.go: 361-400"]}
{"id": "C101", "title": "The trace log shows what crosses the socket", "statement": "At trace level the line logged for a Read or a Write says which bytes were transferred and how many: the bytes can be read back from the dump, and nothing else is in it; the numbers are the right ones.", "quantifier": "all buffers, all numbers of bytes transferred", "why_tests_cant": "all lengths relative to the columns of the dump, and partial transfers, which no test makes", "anchors": ["conn.go:320-359", "util.go:11-28"]}
{"id": "C102", "title": "The log does not show the password", "statement": "What is logged while a connection is opened does not depend on the password, at any level, whatever the server answers.", "quantifier": "all passwords, URLs, servers and log levels", "why_tests_cant": "a relation between two runs (non-interference), for all passwords and servers", "anchors": ["conn.go:119-170, 238-317, 402-472, 551-573, 613-622", "log/log.go"]}
{"id": "C103", "title": "A program that recovers from a panic can go on with the connection", "statement": "When a call panics because the server sent a message the decoder panics on, and the program recovers, the connection is as after an error: calls made afterwards return the answers to their own queries, or errors.", "quantifier": "every position of the message in an answer, every call, any history of recovered panics", "why_tests_cant": "no test recovers from a panic; the position and the calls after it vary without bound", "anchors": ["conn.go: QueryNeoAll, Exec, ExecNeo, ExecPipeline (defer)", "rows.go: NextNeo, Close", "encoding/decoder.go: Decode"]}
{"id": "C104", "title": "A pool survives a panic in one of its calls", "statement": "When OpenPool or Close of a pool panics because of what a server sent, and the program recovers, the pool goes on working for all its clients: its lock is free, it can still hand out as many connections as its maximum, and a pool that was being closed is closed.", "quantifier": "every maximum, any number of clients and panics, every interleaving", "why_tests_cant": "no test recovers from a panic; the loss shows only after as many panics as the pool has slots, to another client", "anchors": ["driver.go: 124-174", "conn.go: initialize, Close", "stmt.go: Close"]}
{"id": "C105", "title": "database/sql repeats a statement only if the server failed it", "statement": "DB.Exec, DB.Query, DB.Prepare and DB.Begin of database/sql call the driver again only when the server answered the earlier call with FAILURE and then broke the protocol while the failure was being acknowledged; with a server that keeps to the protocol every statement is executed exactly once.", "quantifier": "every server, every state of every idle connection, every outcome of opening connections, every call and arguments", "why_tests_cant": "the tests never use database/sql with a failing server, and a statement that is executed twice looks like success", "anchors": ["conn.go: Exec, Query, Prepare, Begin, ackFailure, reset, Read, Write", "doc.go: 88-93"]}
{"id": "C106", "title": "database/sql recovers from a lost connection", "statement": "When the server has closed an idle connection or the network has lost it, database/sql notices, opens another connection and the statement is executed there.", "quantifier": "every server, every number of calls after the loss, every statement and arguments", "why_tests_cant": "the tests open a connection each and close it; a server restart under a running program is not tested", "anchors": ["conn.go: Exec, Query, Begin, Read, Write", "doc.go: 88-93", "errors/errors.go: Wrap"]}
{"id": "C107", "title": "A statement prepared with database/sql does not block the connection", "statement": "After DB.Prepare, other calls of database/sql can go on using the connection on which the statement was prepared.", "quantifier": "every server, every state of the connection, every statement and call", "why_tests_cant": "the tests of Prepare use one statement per connection and close it before anything else", "anchors": ["conn.go: Prepare, Exec, Query, Begin", "stmt.go: Close"]}
{"id": "C108", "title": "A transaction of database/sql is executed as written", "statement": "DB.Begin, any number of Tx.Exec and then Tx.Commit or Tx.Rollback make the database execute BEGIN, the statements in order and once each, and COMMIT or ROLLBACK, and nothing else; each call returns the result of its own statement, and the connection can be used again afterwards. If BEGIN fails, its failure is returned and nothing else is executed.", "quantifier": "every database, every list of statements and arguments, every outcome of each of them", "why_tests_cant": "the tests of transactions use the driver directly and statements that succeed, one transaction per connection", "anchors": ["conn.go: Begin, Exec, sendRunPullAllConsumeSingle", "tx.go: Commit, Rollback", "stmt.go: Close"]}
{"id": "C109", "title": "A query of database/sql gives its records and its connection back", "statement": "DB.Query and a loop over its rows make the database execute the statement once, and give the records of the answer in order, each value as Next is documented to give it; if the statement fails, before or after some records, the failure is returned by Query, by Rows.Err or by Rows.Close; and when the rows are at their end or closed, other calls of database/sql can use the connection.", "quantifier": "every database, every statement and arguments, every answer, every number of records read before the rows are closed", "why_tests_cant": "the tests of database/sql read one record and close everything; no test lets a statement fail after its first record", "anchors": ["conn.go: Query, queryNeo, consumeAllMultiple", "rows.go: Columns, Next, NextNeo, Close", "stmt.go: Close"]}
{"id": "C110", "title": "A prepared statement of database/sql can be executed again and again", "statement": "After DB.Prepare, every sql.Stmt.Query and every sql.Stmt.Exec makes the database execute the statement once with the arguments given, in order, and gives the records or the result of that execution, or its failure, whatever the executions before it returned and however many of their records were read; after sql.Stmt.Close other calls of database/sql can use the connection.", "quantifier": "every database, every statement, every list of executions with their arguments, every answer, every number of records read of each", "why_tests_cant": "the tests of prepared statements execute each once or twice, with statements that succeed, and read all records", "anchors": ["conn.go: Prepare", "stmt.go: Exec, ExecNeo, Query, queryNeo, Close", "rows.go: Next, Close"]}
