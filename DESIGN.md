# Formal model of sfptpd

This directory holds a Lean 4 model of parts of sfptpd (the source is in /repo)
and theorems about that model.  `properties.jsonl` lists the claims,
`MANIFEST.json` maps each claim to theorem names, `seeded/LOG.jsonl` records
the mutation experiments.

## Trusted base

* Lean 4.33.0's kernel, and the axioms `propext`, `Classical.choice`,
  `Quot.sound` (checked with `#print axioms` on every theorem named in
  MANIFEST.json: each depends on a subset of these three, about three quarters
  on all of them, a sixth on `propext` and `Quot.sound`, the others on `propext`
  alone or on none).  There is no `sorry`, no user axiom, no `native_decide`,
  no `bv_decide`.
* The reading of the C code.  The code is not executed or extracted; each
  definition cites the lines it models.  Anything not listed under "modelled"
  below is not covered.
* Standard C semantics on an LP64 Linux target: two's complement, `int` 32 bits,
  `long`/`size_t` 64 bits, arithmetic right shift of negative integers,
  truncating integer division.

### General simplifications

* Floating point (`long double`) is modelled by exact rationals/integers.
  Rounding, NaN and infinities are out of scope.
* Memory allocation succeeds unless a model has an explicit failure parameter.
* Locks are not modelled; where a property is about schedules the model is a
  transition system whose steps are the critical sections of the code.
* Logging, tracing and file output are omitted.
* Undefined behaviour, failed `assert` and out-of-bounds accesses are explicit
  outcomes of the model, not assumed away.

## Layout

`lean/Verif/<Area>/Model.lean` holds the definitions citing the C code,
`Lemmas.lean`, `Support.lean` and `Frame.lean` (where needed) hold auxiliary
proofs, `Spec.lean` (where the specification is more than a few lines) holds
specifications that do not use the model, and
`lean/Verif/<Area>/Props*.lean` hold the property theorems and, beside each,
an `example` showing a concrete case meeting its hypotheses.

## Plan per property

| id | what is modelled | how it is proved |
|----|------------------|------------------|
| C01 | normalise/add/subtract/negate on (sec,nsec,frac) | exact value function into Int; omega |
| C02 | cmp, is_greater_or_equal | sign of value difference |
| C03 | from_ns with its 32-bit truncation | exact on the range where it holds; counter-witness outside |
| C04 | from_ns16, to_ns16 | round trip for all 64-bit values; counter-witness for saturation |
| C05 | fromInternalTime, toInternalTime | round trip, refusal of negatives |
| C06 | bic_choose with the sort abstracted as any sorting permutation | uniqueness of the minimum of a total order |
| C07 | bic_select rule loop | lexicographic order lemmas by induction on the rule list |
| C08 | bmcDataSetComparison | case analysis; counter-witness for antisymmetry; partial for distinct grandmasters |
| C09 | bmcStateDecision, bmc, master tick | case analysis |
| C10 | announce ring, getQualification | ring abstraction to the list of arrivals |
| C11 | foreign record table operations | invariant over operation lists; counter-witness for the index fault |
| C12 | FIR filter | ring invariant: sum of last n samples |
| C13 | smallest filter | ring invariant and argmin |
| C14 | notch filter | direct |
| C15 | PID filter over rationals | invariant over operation lists |
| C16 | strncpy over byte lists | induction |
| C17 | hash table as array of chains, arbitrary hash | refinement to an association map |
| C18,C19 | linked-list and array stores | invariant and refinement to a multiset of records |
| C20-C24 | statistics primitives and collection | folds, invariants |
| C25,C26 | clock feed | decision logic; transition system with reference tracking |
| C27,C28 | tokenizer, option arity | round-trip by induction over words; decision logic |
| C29-C31 | pools, queues, messages | ownership invariant over operations |
| C32 | multicast groups | invariant and delivery counting |
| C33,C34 | timestamp data set | algebra over Rat; invariant |
| C35-C38 | servo decision logic | case analysis, invariant over runs |
| C39,C40 | bond socket map, mask iteration | invariant; counter-witness for wide masks |
| C41-C44,C57 | table-driven and explicit codecs over byte-addressed memory, with the highest byte touched | fields as bits of one number, generic in the table; locality of reads and writes; counter-witnesses |
| C45,C46 | TLV walk | induction over the TLV list; counter-witness for organisation TLVs |
| C47 | decoding and release of management messages with pointers null, live or freed | exact characterisation; counter-witnesses |
| C48-C50,C68-C70 | slave protocol state machine: Sync, Follow_Up, Delay_Req, Delay_Resp, timestamps, timers, changes of parent and state | invariants relating the state to the history; frame lemmas for unrelated messages; counter-witnesses |
| C51-C53 | access lists | bit-vector prefix lemma; decision logic |
| C54 | management gate | decision logic |
| C55 | monitor record merge | invariant over histories |
| C58,C60 | Peirce filter and reported threshold | ring and running-sum invariant, refinement to a window specification; counter-witness for the report |
| C59 | statistics interval table | invariant over period ends |
| C61 | `sfptpd_config_parse_file` loop on token lines, handlers as parameters | equivalence with an inductive relation of acceptable files; counter-witness for an empty file |
| C62 | division of a frequency adjustment between tick length and frequency in `sfptpd_clock_adjust_frequency`, over Rat | bounds from rounding; counter-witness |
| C63 | creation, invalidation and lookup in the pool of bond sockets, masks as BitVec 64 with `int` shifts | induction over creation outcomes; counter-witnesses |
| C64 | monitor logs, latest states and nodes on the array store; contents of the JSON line | invariant over histories on the database refinement; counter-witness |
| C71 | zeros after a message, on the TLV walk | strong induction on the walk; counter-witness |
| C66 | processMessage, processPortMessage and unpackPortMessage on any bytes | exact characterisation of delivery; induction over the ports |
| C67 | management handlers on the octets of the message; answers | case analysis against a table of attributes; frame lemma and induction over messages; counter-witness |
| C56 | format expansion state machine | induction; counter-witness for truncated conversions |
| C65 | the three event monitors on arrays of records in memory, any interval and size of batch | forward simulation against greedy batches, generic in the monitor; exact description of what is wrong; counter-witnesses |
| C72 | translation of alarms to message fields and back, on 32-bit words | bits of the translations by induction over the table; counter-witness |
| C73 | machine of an interface: cache as a bitmap and an array, tickets and numbers of each port and type | invariant on ticket, slot and trace, by induction over the events |
| C74 | the same machine | invariant that the message keeps its slot; counter-witness with a full cache |
| C75 | the same machine, `netCheckTimestampAlarms` as a loop over the pending slots | the loop by induction; alarm as a fold over the trace; counter-witness |
| C76 | the same machine, counters | each step preserves the sums, by counting set bits |
| C77 | outcomes of the same machine | counting requests; counter-witnesses |
| C78 | array of timers, operations as a list | phase of a timer as a function of the ticks since its start, by induction over the operations; counter-witness |
| C79 | state machine of leap seconds with timer, flags, kernel; history of events | invariant linking each state to the request in the history; counting; runs over quiet histories |
| C80 | as C79 | invariant on the flags under working timers; counter-witness |
| C81 | as C79 | invariant on the kernel's flags; two counter-witnesses |
| C82 | as C79 | effect of the cancellation; no step without a request, by induction over the rest of the history |
| C83 | as C79, failed assertions as `none` | case analysis; counter-witness |
| C84 | servo of a PTP port as a function of events, over the clock model of Servo and the data set of Tsd; filters, controller and guard as inputs | classification of steps; induction over histories; counter-witness |
| C85 | as C84 | both directions by case analysis; counting over histories; counter-witness |
| C86 | as C84 | invariant over histories; effect of a measurement |
| C87 | as C84 | case analysis over all steps |
| C88 | as C84 | provenance of timestamps by induction over the history since the step |
| C89 | as C84, answers of the kernel as inputs | case analysis; two counter-witnesses |
| C90 | engine's selection as a machine over events; election and outcomes of calls as inputs | classification of steps; invariant; counter-witness |
| C91 | as C90, servos as pairs of clocks | invariant; totality of steps; counter-witness |
| C92 | as C90 | invariant; counter-witness |
| C93 | as C90, with an observer of the elections | invariant relating timer and observer; counter-witness |
| C94 | as C90 | invariant; counter-witness and invariant of the stuck state |
| C95 | as C90; election of Bic | invariant over the marks; the election of Bic shown to honour them |
| C96 | list of commands given; separate world of clock readings | induction over servos; counter-witness |
| C97 | arithmetic of the score over exact numbers | case analysis; counter-witness |
| C98 | start as a function of what is found | case analysis; counter-witness |
| C99 | merge of sorted lists | induction |
| C100 | parser of commands over lists of characters | round trip of a separate grammar |
| C101 | as C100 | word of the datagram for any bytes; counter-witness |
| C102 | as C100, with the copy into the engine's message | round trip; counter-witness |
| C103 | coefficients of a port and of a servo as machines | induction over events; counter-witness |
| C104 | a port's peer delay as a machine over events, with what it sends | invariant over histories; counter-witness |
| C105 | as C104 | from the invariant of C104; counter-witness |
| C106 | as C104, with the shift of timescale in each state | exact error formula; counter-witness |
| C107 | as C104, the answering side | invariant over histories; counter-witnesses |
| C108 | as C104, Syncs | invariant, and forward preservation for the converse |
| C109 | as C104 | by cases on events; counter-witness |
| C110 | as C104, with the counters | induction over histories; counter-witness |
| C111 | as C104, timers running or stopped | invariant; counter-witness |
| C112 | as C104 | forward preservation; counter-witnesses |
| C113 | as C104 | induction over histories; counter-witness |
| C114 | instances of the PPS module as machines with a shared time of day | invariants over histories, arithmetic of seconds; counter-witness |
| C115 | as C114 | by cases on the servo; counter-witness |
| C116 | as C114, against a watch of the periods | invariant over histories |
| C117 | as C116 | invariant over histories; counter-witness |
| C118 | as C114, against what the engine was told | invariant over histories; counter-witness |
| C119 | as C118, against the time of the latest pulse | invariant over histories; counter-witness |
| C120 | as C114 | by cases on the end of a poll; counter-witness |
| C121 | as C114 | invariant (snapshot of alarms); counter-witness |
| C122 | as C114 | invariant (frequencies, flags) |
| C123 | as C114, assertions as `none` | totality by an invariant over filters; counter-witness |
| C124 | as C114, against the answers each instance got | invariant over histories; counter-witness |
| C125 | as C124 | by cases on the poll; counter-witness |
| C126 | as C114 | invariant (number, counts cleared between polls) |
| C127 | as C114 | from the lemma of C114; counter-witness |
| C128 | the chrony module as a machine over events, against a chronyd that answers truthfully | invariant (no peer is ever marked); counter-witness |
| C129 | as C128 | induction over the sources of a conversation; counter-witness |
| C130 | as C128, against the effects on the clock and looks at chronyd | invariant over histories; counter-witness |
| C131 | as C130, against the engine's wishes | invariant over histories, by cases on the update; counter-witness |
| C132 | as C128 | by cases on the moves of the query; counter-witness |
| C133 | as C128, failures as `none` | totality by an invariant over indices; counter-witnesses |
| C134 | as C130, against what the engine was told | invariant over histories; counter-witness |
| C135 | as C128, replies in the order of requests | by cases on the query; counter-witness |
| C136 | bit vectors and rationals | arithmetic of two's complement |
| C137 | scanner over bytes of reads | induction over arguments and reads; counter-witness |
| C138 | clock objects, their operations and the interface scan as a machine over operations with kernel results as parameters | invariant and a relation kept by every operation, induction over executions |
| C139 | as C138, against the calls made | induction over executions; counter-witness |
| C140 | as C138; frequencies as rationals | invariant with bounds of roundings |
| C141 | as C140, against the rate the kernel derives | arithmetic of roundings by cases; counter-witness |
| C142 | as C138, with accurate comparisons | by cases on the result; counter-witness |
| C143 | as C142 | by cases; counter-witness |
| C144 | as C138, assertion failure as a result | characterisation, induction over executions without scans; counter-witness |
| C145 | as C142 | by cases; counter-witness |
| C146 | as C138, users as a function of calls | invariant (count = number of holders); counter-witness |
| C147 | as C138 | by cases; counter-witness |
| C148 | as C138 | induction over the list of clocks; counter-witness |
| C149 | as C138 | directly; counter-witness |
| C150 | as C142 | by cases |
| C151 | as C138, files in millionths | arithmetic of roundings; counter-witness |
| C152 | as C138, names as lists | induction over the lists |
| C153 | as C152 | induction over the list; counter-witness |
| C154 | as C138 | induction over the interfaces; counter-witness |
| C155 | as C138 | by cases; counter-witness |
| C156 | bytes as lists | by cases |
| C157 | as C138 | induction over interfaces and clocks; counter-witness |
| C158 | the options as functions on tables, names from the documentation in the specification | induction over the parameters |
| C159 | as C158, the end mark and the rules that follow the table included | induction over the parameters; counter-witness |
| C160 | tables with any content | induction over the table |
| C161 | machine integers | arithmetic |
| C162 | readings as parameters, exact fixed-point times | invariant of the loop, induction over the samples |
| C163 | as C162, rational times | arithmetic of intervals |
| C164 | as C162 | arithmetic by cases; counter-witness |
| C165 | as C164 | arithmetic by cases; counter-witness |
| C166 | the device as a record, kernel answers as functions of a call counter, faults as outcomes | induction over the table; counter-witness |
| C167 | as C166, executions as an inductive relation | invariant over reachable states; counter-witness |
| C168 | as C167, with the clock of the kernel | potential over executions, invariant of the waiting time |
| C169 | as C167 | by cases on the kind of comparison; counter-witness |
| C170 | as C167 | induction over executions; counter-witness |
| C171 | the directory as a list of entries | induction over the list; counter-witness |
| C172 | as C166 | induction over the methods |
| C173 | polls as a recursion | induction over the polls; counter-witness |
| C174 | the queue as a function of the counter | induction over the queue |
| C175 | opening and closing as a log | invariant (balance of the log) over reachable states |
| C176 | the module as a machine over events whose circumstances are parameters; answers read off the effects | invariant over lives |
| C177 | as C176 | invariant after the step; two counter-witnesses |
| C178 | as C176, attempts among the effects | invariant over lives |
| C179 | as C176, reports among the effects | invariant over lives; counter-witness |
| C180 | as C178 | invariant over the attempts; counter-witness |
| C181 | failures as outcomes | invariant of the index, failure by cases; counter-witnesses |
| C182 | the client with its two protocols | invariant over lives; counter-witness |
| C183 | as C182 | by cases; counter-witness |
| C184 | times of events | invariant counting the polls; counter-witness |
| C185 | as C176 | invariant, by cases on the handler; counter-witness |
| C186 | the start as a function | by cases on the start; counter-witness |
| C187 | as C178 | by cases; counter-witness |
| C188 | as C176 | invariant over lives; counter-witnesses |
| C189 | packets as lists of bytes, the loop over what the socket gives | invariant of the reassembly: every stored fragment stems from a packet |
| C190 | as C189, the answer split in any way | invariant: what is stored agrees with the answer; the last missing part completes it |
| C191 | reads and writes outside as outcomes | the same invariant; counter-witness |
| C192 | times of the events | each stored fragment extends the time once, and there are at most 32 |
| C193 | as C189 | by cases; counter-witness |
| C194 | as C189 | from C189; counter-witness |
| C195 | as C189 | from the invariant; counter-witness |
| C196 | texts as lists of bytes, the list of variables as a grammar | induction on the list |
| C197 | as C196 | every step consumes a byte |
| C198 | null pointers and searches outside as outcomes | by cases; counter-witnesses |
| C199 | the array of the value with what is left in it | by cases on the form |
| C200 | the query and the search as one function | composition of C190, C196 and C199 |
| C201 | the table and the loop over the associations | induction on the list, field by field; counter-witnesses |
| C202 | as C201 | by cases; counter-witnesses |
| C203 | the buffer that stays between queries | composition with C190; counter-witness |
| C204 | the datagram as a list of bytes | computation for all lengths |
| C205 | the loop over the names | induction on the names |
| C206 | the datagram as a list of bytes, the clock a parameter | computation modulo 2^64 |
| C207 | as C206 | computation for all lengths |
| C208 | datagrams as lists of bytes; messages of ntpd as a separate encoder | by cases on the header; induction on the events |
| C209 | as C208, the answer split in any way | invariant of the loop; counter-witnesses |
| C210 | reads and writes outside, overflow as outcomes | invariant over all events and queries; counter-witness |
| C211 | times of the events | induction on the events |
| C212 | the client over a list of queries | invariant with a measure of the steps that remain |
| C213 | records of ntpd as separate encoders | composition with C209; counter-witnesses |
| C214 | as C213, the two loops over the table | induction on the peers |
| C215 | as C210 | the invariant of C210 |
| C216 | as C211 | composition |
| C217 | two runs side by side | simulation relation; counter-witness |
| C218 | as C214 | as C214, then by cases; counter-witnesses |
| C219 | the datagrams that were sent as a list | by cases; from the check of the header |
| C220 | as C213, with padding | reduction to C213 and C214 |
| C221 | what waits at the socket | induction; counter-witness |
| C222 | the datagrams that were sent as a list | invariant over all queries |
| C223 | failures of the calls as parameters | by cases |
| C224 | the link table as a list, the loop with a number of rounds | induction; pigeonhole for the number of rounds; counter-witness |
| C225 | the record with array, number and flag for stores outside | invariant of the nested loops |
| C226 | sorting by names | uniqueness of sorted lists |
| C227 | assertion failures as an outcome | by cases; counter-witness |
| C228 | interfaces and their links as parameters | invariant of the search, by cases |
| C229 | the record before as a parameter | by cases; counter-witness |
| C230 | as C225 | from C225 and C228; counter-witness |
| C231 | as C228 | by cases |
| C232 | links as delivered by netlink | from C225; counter-witness |
| C233 | the loop as a fold | invariant over the slaves that are up; counter-witness |
| C234 | as C233 | from C233; counter-witness |
| C235 | any number of instances | by cases |
| C236 | the interface with its ports, before and after | induction on the ports, C233; counter-witness |
| C237 | as C236 | by cases; counter-witness |
| C238 | results of `netInit` as a parameter | induction on the ports; counter-witness |
| C239 | which record is pointed to | induction on the events; counter-witness |
| C240 | operations on timestamping as a list | by cases; counter-witness |
| C241 | as C224 | composition |
| C242 | the table, long doubles as rationals with infinities and NaN | search in a table over a range; ordered field |
| C243 | as C242 | from C242; finite tables by evaluation, codes outside by cases |
| C244 | both translations | by cases; counter-witness |
| C245 | both tables | by cases |
| C246 | the list of interfaces with their lists of instances | invariant of the creation loop |
| C247 | as C246 | the same invariant |
| C248 | as C246, destruction step by step | the invariant, induction on the instances left |
| C249 | positions in the lists | induction on the instances not yet visited |
| C250 | loops over the instances | induction; C242, C244 |
| C251 | 32-bit words | bit by bit |
| C252 | an instance with the engine's knowledge, runs of events | invariant over runs; counter-witness |
| C253 | the same with the network's knowledge | invariant over runs; counter-witness |
| C254 | the messages of a tick | by cases; counter-witness |
| C255 | the messages of a run | induction on the run; counter-witness |
| C256 | as C252 | by cases, bit by bit |
| C257 | the message buffer as a parameter | by cases; counter-witness |
| C258 | descriptor numbers, open files and the epoll set | invariant over runs; counter-witness |
| C259 | results of the calls as parameters | by cases; counter-witness |
| C260 | the loop of start-up | induction; counter-witness |
| C261 | as C246 | from C247; counter-witness |
| C262 | netlink messages folded into a table of rows | induction with an invariant on the last message of each interface |
| C263 | as C262 with the capacity of the table | induction |
| C264 | the handler of link messages | by cases |
| C265 | as C264 | by cases; counter-witness |
| C266 | as C264 | by cases |
| C267 | the loop over team options with its table of attributes | induction; counter-witness |
| C268 | sizes as 32-bit words, payloads as bytes | arithmetic; counter-witness |
| C269 | the loop over strings | induction |
| C270 | the handler of ethtool replies | by cases |
| C271 | one datagram; a query overwrites the receive buffer | by cases; counter-witness |
| C272 | as C264 with the result of sending as a parameter | by cases; counter-witness |
| C273 | the scan loop | induction; counter-witness |
| C274 | the merge of two tables | induction on the merge |
| C275 | as C274 | induction on the merge |
| C276 | the ring of four tables, calls with any passes | invariant; counter-witness |
| C277 | as C276 | from the classification of outcomes |
| C278 | as C276 | from the classification of outcomes |
| C279 | as C276 | from the classification of outcomes |
| C280 | the search with the remainder of C | induction; counter-witness |
| C281 | release | from the search |
| C282 | as C276 | from the classification of outcomes |
| C283 | the waiting loop with the results of `epoll_wait` | induction; counter-witness |
| C284 | the engine with its subscribers as a machine | invariant over runs |
| C285 | as C284 | invariant over runs |
| C286 | as C284 | invariant and classification of steps |
| C287 | as C284 | invariant over runs |
| C288 | as C284 | invariant over runs |
| C289 | as C284 | invariant over runs |
| C290 | as C284 | classification of steps and C274 |
| C291 | the search with a number of rounds | well-founded rank; counter-witness |
| C292 | as C291 | induction, against a relation that lists the clocks of the tree |
| C293 | the start of all instances | induction on the instances |
| C294 | as C293 | induction on the instances |
| C295 | messages as a machine | induction on runs |
| C296 | as C295 | by cases and induction on runs |
| C297 | creation with results of allocation as parameters | induction; counter-witness |
| C298 | the words of the option | induction |
| C299 | the loop over the map with stores into an array | invariant of the loop |
| C300 | the table of alarms | words of a concatenation, monotone length |
| C301 | the loop over the map | induction; counter-witness |
| C302 | the comparison | by cases; counter-witness |
| C303 | the table of interfaces, hotplug and requests as a machine | invariant of runs |
| C304 | as C303 | invariant of runs; counter-witness |
| C305 | aliases with a number of rounds, shown to be enough | invariant: every chain ends; pigeonhole; counter-witness |
| C306 | the functions that read an interface | against a relation that follows aliases |
| C307 | the request with the name it goes to | by cases; counter-witness |
| C308 | the tries with the answers of the device as a function | induction on the tries |
| C309 | the masks | bitwise; counter-witness |
| C310 | the tests of a link | by cases |
| C311 | the loop over the links | induction; counter-witness |
| C312 | the number of blocks of each object | invariant of runs; counter-witness |
| C313 | the assignment of numbers | invariant of start-up and runs; counter-witness |
| C314 | the loop of the helper over turns with any contents of memory | the pattern against an explicit form of names; over runs |
| C315 | as C314 | each deed traced to the request; counter-witness |
| C316 | as C314, with the effect of SIGPIPE as a parameter | induction on turns; counter-witness of any length |
| C317 | as C314, with the descriptors made and closed | balance of each turn; counter-witness |
| C318 | the steps of connecting with their results | by cases against the first failing step |
| C319 | the call with the results of sending and receiving | by cases; counter-witness |
| C320 | as C319 | by cases; counter-witness |
| C321 | starting the helper | by cases; counter-witness |
| C322 | as C319 | by C318; counter-witness |
| C323 | threads in the call as a machine | invariant of runs; counter-witness with an invariant |
| C324 | as C319 | by cases; counter-witness |
| C325 | the editor over characters, with the pattern for options | lines by induction; induction on operations |
| C326 | as C325 | induction on the structure of the file; counter-witness |
| C327 | as C325 | last line that sets the options; counter-witness |
| C328 | as C325, with accesses outside as an outcome | induction on characters; counter-witness |
| C329 | the control with the values of system | by cases; counter-witness |
| C330 | the return code over the files | induction on files; counter-witness |
| C331 | all handlers of PTP options over the characters of the file, with the way options reach instances | invariant of runs, by cases on options |
| C332 | as C331 | invariant after the last profile; counter-witness |
| C333 | as C331, with the creation of instances | by cases |
| C334 | as C331 | invariant of runs |
| C335 | as C331 | all rows of a table of words, for all texts |
| C336 | as C331, with `sscanf` over characters | numerals by induction; all rows of a table of limits |
| C337 | as C331 | all rows of a table of settings |
| C338 | as C331 | equality of rows; counter-witness |
| C339 | as C331, with failed assertions as an outcome | invariant: profile and version are the same everywhere; counter-witness |
| C340 | the buffer with `snprintf` | induction on the list; the words of a text are unique |
| C341 | the patterns over characters | induction on characters and on the list |
| C342 | floating point numbers with the special values | by cases; counter-witness |
| C343 | as C331 | by computation; counter-witness |
| C344 | as C336 | by C336; counter-witnesses |
| C345 | Adding and removing users, lookup in sending, as steps of threads | Invariant between groups and a register kept from calls and return codes |
| C346 | `sfptpd_multicast_destroy` | Groups exist exactly for registered messages |
| C347 | The parts of `sfptpd_multicast_send` in a row | Induction on recipients |
| C348 | Steps of all threads, interleaved | Balance of messages in hand by induction on the run |
| C349 | Gathering with failing allocation | Witness; classification of what gathering does |
| C350 | Lookup without the lock, removal of groups | Witness; invariant: a publisher that sends keeps its group |
| C351 | Gathering and delivering as separate steps | Witness; recipients in hand go back to a gathering in the same call |
| C352 | Writers made and destroyed | Balance with the register by induction on the run |
| C353 | `sfptpd_config_general_set_verbose` | Witness; cases of the verbosity |
| C354 | Both passes over the command line and `parse_trace_level` | Witness; induction on the number of options and on the lines |
| C355 | `parse_trace_level` | Witness; cases, conversion of numerals |
| C356 | `parse_user` with databases as parameters | Witness; cases of the lookups, conversion of numerals |
| C357 | The same | Witness; the same |
| C358 | The same, uninitialised record as an outcome | Witness; cases of the lookups |
| C359 | `parse_clock_list`, `parse_clock_readonly`, `parse_timestamping_interfaces` | Witness; induction on the list |
| C360 | `parse_timestamping_interfaces` twice | Witness; the flag in terms of both lists |
| C361 | `parse_unique_clockid_bits` with `sscanf` | Witness; induction on the octets written |
| C362 | The same twice | Witness; overlay of octets |
| C363 | `parse_sync_module`, `validate_config`, `sfptpd_config_section_add` | Witness; invariant of the sections |
| C364 | The same | Invariant: initial sections followed by the instances asked for |
| C365 | All handlers of single values over one record of settings | Witness; invariant over the lines of the file |
| C366 | The same | Cases of a table of words written down separately |
| C367 | The same | Each handler replaces its setting |
| C368 | `parse_ignore_critical` | Induction on the words |
| C369 | The handlers with the numbers of parameters of the table; a failed assertion is an outcome | Cases of the handlers |
| C370 | All handlers of single values over one record of settings | Cases of a table of limits and settings written down separately; conversion of numerals |
| C371 | The same | Cases of a relation of lines and settings |
| C372 | `parse_reporting_intervals` | Induction on the pairs |
| C373 | `runtime_checks`, `lock_create`, `lock_delete` and `daemonize` of any number of processes, one system call a step; which processes see each other is a parameter | Witness; invariant: locks belong to processes, open files are at the path; invariant: at most one process is past the search |
| C374 | The same, with processes that are killed | Invariant |
| C375 | The same | Invariant |
| C376 | The same | Witness; counting along the steps |
| C377 | `drop_user`, `claim_drop_privilege` with the rules of the kernel for credentials | Cases |
| C378 | The same | Witness; cases |
| C379 | The same | Cases of the settings |
| C380 | The same, followed by any calls | Invariant along the calls |
| C381 | `notify_init` | Witness; cases |
| C382 | `notify_init` with the rules of unix(7) | Witness; for all abstract names; octets of the address |
| C383 | The main loop of the root thread with the handlers of the daemon | Induction on the turns; reasons specified apart |
| C384 | The same | Induction on the turns |
| C385 | The same, and the end of `main` | Witness; from C383 |
| C386 | The same | From C383 |
| C387 | The same | Induction on the turns and events |
| C388 | `sfptpd_log_rt_stats_written` with the lengths of the lines | Witness; invariant of counter and buffer |
| C389 | `create_log`, `sfptpd_log_file_close` with writes in parts | Witness; invariant of temporary file and document |
| C390 | `sfptpd_log_rotate`, `sfptpd_log_close` and the end of `main` on a table of descriptors | Witness; invariant of descriptors and variables |
| C391 | `sfptpd_log_rotate` | Cases |
| C392 | `gps_do_io`, `gps_state_machine`, `gps_parse_state`, `update_state` | Invariant over all events, against the last reports |
| C393 | The same, with failed reads | Witness; invariant |
| C394 | `gps_handle_state_change`, `gps_on_get_status` | Invariant of the last status sent |
| C395 | `gps_convergence_update`, `sfptpd_stats_convergence_update` | Witness; invariant |
| C396 | `gps_on_step_clock`, `gps_state_machine` | Witness; the offset stored by a report |
| C397 | `gps_state_machine`, `gps_parse_state` | Witness; induction against the times reported since the fix |
| C398 | `gps_state_machine`, `gps_on_get_status` | Witness; the accuracy stored by a report |

## What is modelled

| area | code | not modelled there |
|------|------|--------------------|
| Time | `sfptpd_time.c` 48-135, integer inlines of `sfptpd_time.h` 178-375, `arith.c` 63-89, `ptpd.h` 109-114 | float conversions, text formats |
| Tsd | all of `sfptpd_ptp_timestamp_dataset.c` | rounding, the recorded monotonic time |
| Bic | all of `sfptpd_bic.c` | tracing; `qsort_r` is any sort |
| Foreign | `foreign.c` 73-271, 485-519 | Sync/Follow_Up bookkeeping 419-470 |
| Bmc | `bmc.c` 467-908; state changes of `protocol.c` (211-456, 468-562, 582-853, 1746-1857), `ptpd_lib.c` 420-445 | sending, counters, servo |
| Acl | `dep/ipv4_acl.c`; `protocol.c` 866-1020 | debug dump |
| Stats | `sfptpd_statistics.c` 113-470, 626-764, 852-1275 | log and JSON writers, rounding, `sqrtl` |
| Filter | `sfptpd_filter.c`; `dep/servo.c` 318-327 | rounding, `sqrtl` |
| Misc | `sfptpd_misc.c` 57-65, 243-575 | the remaining helpers |
| Db | `sfptpd_db.c` | diagnostic dump, allocation failure |
| Config | `sfptpd_config.c` 141-421, 815-896 | the individual option handlers |
| Thread | `sfptpd_thread.c` 481-690, 1029-1229; `sfptpd_multicast.c` 178-287, 340-468 | the event loop, timers and signals, payloads |
| Feed | `sfptpd_clockfeed.c` 296-385, 452-653, 865-1040 | statistics |
| Servo | `sfptpd_servo.c`; `sfptpd_clock.c` 1442-1520, 1740-1914, 2142-2180 | statistics, rounding |
| Lacp | `sfptpd_lacp.c`, `sfptpd_lacp.h`, socket choice in `dep/net.c` | system calls are outcomes from outside |
| Monitor | `sfptpd_ptp_monitor.c` | text output but for the contents of JSON lines |
| Codec | `dep/msg.c` 84-317, 1154-1242, 1429-1530, 1560-2072, 2330-2399, 2605-3024 and `def/**/*.def` | display functions |
| Dispatch | `protocol.c` 144-208, 966-1468 | counters other than discards |
| Management | `dep/msg.c` 320-1126, 1464-1513, 2295-2318; `protocol.c` 2886-3293; `management.c` 105-1183 | encoding and sending of answers |
| Slave | `protocol.c` 855-864, 1138-1168, 1539-1637, 1860-2063, 2114-2534, 3581-3648, 4022-4036; `bmc.c` 155-345 | lengths of timers, test modes |
| Evtmon | `evtmon.c`; `sfptpd_ptp_config.c` 1179-1245; `ptpd_lib.c` 858-968; `sfptpd_ptp_monitor.c` 556-575, 836-892 | destinations and counters of sending |
| TxCache | `dep/net.c` 205-251, 1126-1188, 1408-1475, 1785-1810, 2285-2342; `protocol.c` 618-632, 1146-1158, 1539-1668, 3433-3535, 3580-3780 (requests only); `bmc.c` 135-139 | printing; control messages of the error queue; choice among timestamps |
| Timer | `dep/timer.c` | rounding of `long double` |
| Leap | `sfptpd_engine.c` 366-420, 1128-1253, 1273-1442, 1665-1745 (tests of the state), 2080-2115, 2942-2980; `sfptpd_clock.c` 1923-2006 | the delivery of control messages, the clocks' own arithmetic, logs |
| PtpServo | `ptp/ptpd2/dep/servo.c` 71-152, 177-266, 345-548, 588-727 | the inside of the filters and of the controller (Filter), the clustering score, logs |
| Engine | `sfptpd_engine.c` 423-460, 592-608, 813-939, 1541-1574, 1826-1835, 1855-2078, 2435-2533, 2853-2937; `sfptpd_sync_module.c` 269-283; `sfptpd_clock.c` 2039-2147 (result only) | creation of modules, statistics, logs, files, netlink |
| Control | `sfptpd_control.c` 141-260; `sfptpd_servo.c` 253-265, 784-793; `sfptpd_filter.c` 177-193; `sfptpd_engine.c` 2778-2793; `ptpd_lib.c` 581-587; `servo.c` 131-134 | opening the socket, `strtod` (parameter) |
| Peer | `protocol.c` 211-458, 468-480, 645-850 (parts), 1539-1636, 2087-2098, 2268-2336, 2538-2881, 3399-3483, 3540-3562, 3651-3840, 3905-3934, 4022-4036; `bmc.c` 132-139 | contents of Announces, monitoring variants, test modes; timers are only running or stopped |
| Pps | `sfptpd_pps_module.c` 68-218, 722-881, 983, 1199-1404, 1453-1845, 1919-1972, 2047-2052, 2169-2235, 2275-2339 | configuration of the clock (`pps_configure_clock`), draining of events, logging, statistics values, bogus events of the test mode; offsets are rationals, not doubles; `step_clocks` of other modules |
| Crny | `sfptpd_crny_module.c` 64-223, 467-491, 549-1526, 1529-1827, 1891-1958, 2127-2317, 2398-2429, 2544-2613 | addresses and packet counts of sources, offset identity, log files, topology, convergence values; a source's measurement is one opaque number; the privileged helper that opens the socket and runs the script is a parameter |
| Clock | `sfptpd_clock.c` 401-569, 591-717, 735-1102, 1124-1192, 1341-1355, 1425-1553, 1662-1676, 1751-2247, 2333-2364; `sfptpd_phc.c` 1346-1351; `sfptpd_interface.c` 444-449, 1528-1538 | log messages, statistics of comparisons, the methods of comparison of the PHC layer (results are parameters), the format of names, PPS, locking, strata |
| Phc | `sfptpd_phc.c` 226-1435; `sfptpd_general_config.c` 507-625 | log messages, statistics, the width of machine integers other than identifiers, the pin function of devices (its failure is only logged) |
| Ntp | `ntp/sfptpd_ntp_module.c` 340-1420, `ntp/sfptpd_ntpd_client.c` 39-242 | floating point (whole nanoseconds, dispersion possibly infinite), log messages, state and topology files, statistics over time, failures of timers; the client protocols are parameters (see Ntp6 and Ntp7 where present) |
| Ntp6 | `ntp/sfptpd_ntpd_client_mode6.c` 127-1137, 1229-1507 | MD5 (a parameter that yields 20 bytes), `getaddrinfo` and `sscanf` (parameters), the smoothed values, log messages; creation, destruction and feature flags are not modelled |
| Ntp7 | `ntp/sfptpd_ntpd_client_mode7.c` 463-694, 730-731, 754-1285, 1302-1543 | MD5 and `getnameinfo` (parameters), offsets as rationals, the smoothed values, names of hosts, `poll` as a list of timed events, log messages; destruction and feature flags are not modelled |
| Bond | `ptp/sfptpd_ptp_module.c` 587-649, 874-885, 1006-1077, 1148-1575, 1606-1672, 1723-1876, 2064-2080; `sfptpd_link.c` 106-147; `ptp/ptpd2/ptpd_lib.c` 598-663 | interface objects and their links as parameters; names as numbers; log messages, discipline checks and the sockets are left out; an enable that fails is not followed by its disable |
| PtpMod | `ptp/sfptpd_ptp_module.c` 298-468, 489-509, 534-574, 844-862, 1877-1919, 1957-2235, 2372-2479, 3222-3411, 3418-3610, 3640-3780, 3813-3854, 3947-3967, 4111-4158, 4224-4236; `sfptpd_sync_module.c` 107-115 | names as numbers, long doubles as rationals; memory is available; the Allan variance is kept in coded form; local accuracy, tracing and statistics are left out; the convergence measure, the clustering score and the choice of the active interface are parameters; `ptpd_get_snapshot` succeeds |
| Netlink | `sfptpd_netlink.c` 372-433, 477-741, 755-1251, 1413-1488, 1584-1903, 1945-2037; `sfptpd_engine.c` 1470-1631 (link tables only), 2177-2201 | messages are given as their decoded attributes, the encoding of libmnl is not modelled; strings of options and statistics as bytes or characters; memory is available; sockets are passes of datagrams, each ending or failing; messages left over when a query overwrites the buffer are arbitrary; logging is left out; clock feeds and servos are left out of the engine |
| Freerun | `sfptpd_freerun_module.c` 100-118, 140-161, 206-290, 302-627, 630-694, 803-872 | interfaces and clocks are parameters; names are numbers; contents of files written are left out |
| SyncText | `sfptpd_sync_module.c` 46-102, 125-168, 231-264, 290-303; `sfptpd_engine.c` 1944-1951 | writing to the stream does not fail; floating point numbers are rationals, infinite or not numbers |
| Intf | `sfptpd_interface.c` 503-591, 594-675, 708-926, 940-1217, 1242-1368, 1400-1612, 1637-1891, 1918-2095 | names, addresses and clocks are numbers; what the kernel, sysfs and clocks answer is a parameter, constant within a call; versions, identifiers and contents of statistics are left out |
| Priv | `sfptpd_priv_helper.c` 36, 86-237; `sfptpd_priv.c` 117-404; `sfptpd_crny_helper.c` 56-398 | results of system calls are inputs; a request arrives whole or not at all; pages have 4096 bytes; allocation does not fail; flags of sockets, destruction of the lock and logging are left out; threads in the call are modelled apart from its results |
| PtpConf | `sfptpd_ptp_config.c` 32-1817; `ptpd_lib.c` 22-177 (defaults); `sfptpd_config.c` 296-401; `sfptpd_ptp_module.c` 3582-3594 | reading of floating point numbers and resolution of addresses are parameters; memory does not run out; priorities and masks of tracing are plain numbers; logging is left out |
| Mcast | `sfptpd_multicast.c` lines 33-73, 159-378, 380-468 | Threads, writers, messages and addresses of groups are numbers and addresses are not reused; adding and removing are atomic (lock held throughout); sending is lookup, gathering (lock held) and one step per recipient; allocation results are inputs; comments, magic words, payloads and dumps left out; unlocked reading of the list during insertion is not modelled beyond the lookup being one step |
| GenConf | `sfptpd_general_config.c` lines 405-470, 693-820, 1006-1072, 1147-1178, 1245-1290, 1588-1622, 1643-1667, 1852-1887; `sfptpd_config.c` lines 525-552, 603-620 and the `-v` options; `crny/sfptpd_crny_module.c` lines 2497-2500 | A handler that fails gives an error number only; failed assertions and use of an uninitialised record are outcomes; databases of users and groups are parameters that do not change during a call; sections form one list; memory never runs out; `HAVE_CAPS` and `HAVE_GPS` |
| GenConf (single values) | `sfptpd_general_config.c` lines 472-504, 628-690, 832-847, 876-1004, 1075-1144, 1181-1242, 1350-1585, 1625-1640, 1706-1770 | The conversions `%Lf` and of decimal numbers are parameters; what a refused line leaves behind is not modelled, as the daemon stops; the options of paths and of files for JSON are not modelled |
| PidLock | `sfptpd_main.c` lines 286-303, 351-412, 476-502, 881-884, 931-933, 963 | The search for running programs is one step and a parameter tells which processes see each other; one file; all processes have locking enabled and may remove the file; parent and child of `daemon` are one process; contents and owner of the file are left out |
| Start | `sfptpd_main.c` lines 85-98, 123-249, 505-561, 917-928 | Real, effective and saved identities are one; the inheritable set is left out; failures of calls are parameters; `HAVE_CAPS` is defined |
| Exit | `sfptpd_main.c` lines 640-812, 936-942, 952-971; `sfptpd_thread.c` lines 1322-1372, 1408-1486, 1976-1992 | Started already; sources ready in any order; parameters of commands and the actions of the engine are left out |
| Log | `sfptpd_logging.c` lines 48-50, 114, 215-252, 423-427, 493-496, 503-578, 626-636, 661-683, 746-763; `sfptpd_engine.c` lines 1116-1120, 1778; `sfptpd_main.c` lines 887-889, 962 | Lengths of lines only; a counter of any size; one name and one thread for state files; descriptors for messages and statistics only |
| Gps | `gps/sfptpd_gps_module.c` lines 60-119, 299-356, 425-477, 544-553, 570-656, 800-934, 954-984, 1094-1191; `sfptpd_statistics.c` lines 141-182 | Whole nanoseconds of any size; one instance; clustering, statistics and texts left out; accuracy kept but not in the status |

Everything else in /repo is outside the model: in particular `sfptpdctl/sfptpdctl.c`, in
`ptp/ptpd2` the files `display.c`, `dep/snmp.c`, `dep/sys.c` and `dep/statistics.c`, the texts and JSON documents written, and within the files listed above
all lines not listed. The kernel, the C library, libcap, libgps, ntpd, chronyd and the
network appear only as inputs.

## Findings

Places where the code, as read, violates the property.  Each is recorded by a
theorem stating the negation with a concrete witness and, where something remains true, a
`_partial` theorem for that part.

| claim | code | what happens | theorem |
|-------|------|--------------|---------|
| C03 | `sfptpd_time.h` from_ns | the quotient passes through 32 bits: wrong for magnitudes of 2^31 ns and more (reached from `sfptpd_engine.c:1600` for `netlink_coalesce_ms` of 2148 and more) | `Time.C03_violated` |
| C04 | to_ns16, from_ns16 | wraps instead of saturating between 140737.49 s and 281474 s; the least 64-bit value is undefined behaviour, and comes straight from a correctionField | `Time.C04_saturation_violated`, `Time.C04_from_ns16_min` |
| C06, C07 | `sfptpd_bic.c` | Allan variances that are NaN make "better" cyclic | `Bic.C06_violated`, `Bic.C07_transitivity_violated` |
| C08 | `bmc.c` data set comparison | one grandmaster seen through two masters whose steps differ by one: each is better than the other, so the election depends on the order of hearing | `Bmc.C08_mirror_violated`, `Bmc.C08_order_violated` |
| C10 | `bmc.c` election | the clock is read twice; a record may cease to be qualified in between and be elected | `Bmc.C10_violated` |
| C11 | `foreign.c` expiry and insertion | memmove and insertion beyond the array, duplicates | `Bmc.C11_expiry_overrun`, `Bmc.C11_memory_violated`, `Bmc.C11_nodup_violated` |
| C12 | `sfptpd_filter.c` FIR | stiffness 0 is accepted and gives 0/0 | `Filter.C12_zero_stiffness_undefined` |
| C16 | `sfptpd_strncpy` | size 0 writes before the buffer | `Misc.C16_zero_size` |
| C19 | `sfptpd_db.c` | records above 4096 bytes give capacity 0, the first insertion fails | `Db.C19_zero_capacity` |
| C21 | `sfptpd_statistics.c:719-729` | the number of samples is ignored | `Stats.C21_count_statistics_violated` |
| C25 | `sfptpd_clockfeed.c:982-995` | the limit on the difference in age does not apply when the first sample is the newer; times may be torn | `Feed.C25_age_diff_violated`, `Feed.C25_one_sample_violated` |
| C26 | `sfptpd_clockfeed.c:638-640` | use after free at shutdown | `Feed.C26_shutdown_violated` |
| C27 | `sfptpd_config.c` tokenize | an escaped blank does not begin a token | `Config.C27_leading_blank` |
| C29 | `sfptpd_thread.c` | a failed send returns the message without counting it | `Thread.C29_counter_violated` |
| C35 | `sfptpd_servo.c` | the epoch guard set to correct clocks steps them against the policy | `Servo.C35_violated` |
| C37 | `sfptpd_servo.c` | synchronised although alarmed | `Servo.C37_violated` |
| C38 | `sfptpd_servo.c:418,482` | the alarm of the master is cleared by the branch for the slave | `Servo.C38_violated` |
| C40, C63 | `sfptpd_lacp.[ch]` | `1 << i` in `int` on a 64-bit mask | `Lacp.C40_violated`, `Lacp.C63_violated`, `Lacp.C63_undefined` |
| C41 | `msg.c` msgUnpackHeader | messageTypeSpecific is not swapped | `Codec.C41_violated` |
| C43 | `msg.c` | upper nibbles have size 0, so one byte beyond the length is read; short slave event TLVs abort the daemon | `Codec.C43_violated`, `Codec.C43_abort_violated` |
| C44 | `msg.c` msgPackPDelayReq, packMsgHeader | writes 54 bytes after checking 44; one byte beyond a space of 0 or 1 | `Codec.C44_violated`, `Codec.C44_header_violated` |
| C45 | `protocol.c:1330,1426` | six more bytes are skipped after an organisation extension TLV | `Dispatch.C45_violated` |
| C46 | `protocol.c` | an organisation extension TLV shorter than six wraps its length | `Dispatch.C46_violated` |
| C47 | `msg.c` msgUnpackManagement, unpackMM* | dangling pointers, double free, copy from a null pointer, leak, uninitialised lengths; all by a remote message, the first even with management disabled | `Management.C47_*violated`, `Management.C47_dangling` |
| C48 | `protocol.c:609` | the parent changes while a Sync waits: the times of two masters are combined | `Slave.C48_violated` |
| C49 | `protocol.c:2238` | the correction of a two-step Sync is overwritten by that of the Follow_Up | `Slave.C49_violated` |
| C50 | `protocol.c:2411-2415` | a stashed Delay_Resp is judged by the last message instead of itself | `Slave.C50_order_violated` |
| C52 | `ipv4_acl.c:181` | a dotted mask whose last bit is set shifts by 32 | `Acl.C52_entry_violated` |
| C56 | `sfptpd_misc.c` sfptpd_format | abort instead of truncation, overrun, reading past the format, forgotten errors | `Misc.C56_format_violated`, `Misc.C56_overrun` |
| C57 | `slave_tx_event_timestamps` def | the first reserved field is written into another byte | `Codec.C57_tx_violated` |
| C60 | `dep/servo.c:325` | the criterion is truncated to an `int` | `Filter.C60_threshold_violated` |
| C61 | `sfptpd_config.c:891` | a file without a section dereferences a null section | `Config.C61_answered_violated` |
| C62 | `sfptpd_clock.c:1874-1890` | up to half a tick of adjustment is lost | `Servo.C62_violated` |
| C64 | `sfptpd_ptp_monitor.c` | the grandmaster in the JSON line is never set | `Monitor.C64_json_violated` |
| C67 | `msg.c` unpackBoolean | four octets are read for one | `Management.C67_violated` |
| C68 | `protocol.c:1142,1612` | the UTC offset is applied twice to looped-back transmit times | `Slave.C68_violated` |
| C69 | `protocol.c` handleFollowUp | an early Follow_Up numbered 0, or one that comes while another Sync waits, is lost | `Slave.C69_violated`, `Slave.C69_waiting` |
| C70 | `protocol.c` | a change to end-to-end after the first Sync never starts the timer of Delay_Req | `Slave.C70_violated` |
| C71 | `protocol.c:1297` | one octet of padding leaves the type of a TLV uninitialised | `Dispatch.C71_violated` |
| C65 | `evtmon.c` 201-217 | the place of a record is determined before the change of parent resets it: a record of the old parent is sent for the new one, whose own is lost | `Evtmon.C65_violated`, exactly `Evtmon.C65_timing` |
| C65 | `sfptpd_ptp_config.c` 1179-1245 | intervals are cut to 16 bits | `Evtmon.C65_skip_violated` |
| C65 | `datatypes.h:1100` | dimensions swapped: peer delay requests and responses share memory | `Evtmon.C65_tx_violated` |
| C72 | `sfptpd_ptp_monitor.c` 863-888 | alarms without a name of their own are not written in the JSON line | `Evtmon.C72_violated` |
| C74 | `dep/net.c` 2298-2306 | the search for the oldest request compares that of slot 0 each time: when the cache is full the newest request, which took slot 0, is dropped by the next | `TxCache.C74_violated` |
| C75 | `dep/net.c` 1449 | `alarm != 1` is meant for "not already on" but 1 is TRISTATE_OFF, the value at the start: no check ever raises the alarm, and each clears it | `TxCache.C75_violated`, exactly `TxCache.C75_alarm_partial` |
| C77 | `dep/net.c` 2307 | `packet[slot]` is read with slot = 32 | `TxCache.C77_full_violated` |
| C77 | `protocol.c` 1149-1158 | `processTxTimestamp` is called with an unassigned user when no request fits | `TxCache.C77_loop_violated` |
| C78 | `dep/timer.c` 107-115 | `timerStop` leaves the latch set: a timer that has expired and is then stopped is still reported as expired | `Timer.C78_stop_violated` |
| C81 | `sfptpd_engine.c` 1236-1238, 1383-1385 | with `step-forward` the kernel is asked to insert a second, which puts the system clock back, and not asked to delete one although the clocks of the interfaces are stepped forward: the test of the type is the wrong way round in the first place | `Leap.C81_forward_violated`, `Leap.C81_agree_violated` |
| C80 | `sfptpd_engine.c` 1360-1366, 1404-1412 | when the timer cannot be restarted the state becomes idle with the instances still suspended, and `on_cancel_leap_second` does nothing in that state | `Leap.C80_resumed_violated` |
| C83 | `sfptpd_engine.c` 2105-2107, 2948 | the test command to cancel a local leap second calls the scheduling function with no type, which it asserts not to happen | `Leap.C83_abort_violated` |
| C84 | `servo.c` 177-187, 237-248; `bmc.c` 165 | a reset of the servo sets the frequency of the clock to the saved correction without regard to the clock control flag, so an instance that is not selected disturbs the clock another instance is steering | `PtpServo.C84_authority_violated` |
| C85 | `servo.c` 90-101; `protocol.c` 543 | initialising the port again after a fault clears the mark that the clock has been updated, so the policies that step once step again | `PtpServo.C85_startup_violated` |
| C89 | `servo.c` 513-548, 588-600, 177-187 | the alarm of a failed step is cleared at once by the setting of the frequency that follows; a reset clears it even if it failed itself | `PtpServo.C89_alarm_violated`, `PtpServo.C89_reset_violated` |
| C90 | `sfptpd_engine.c` 850-939 | if the control call for the newly selected instance fails nobody steers; the instance stays selected and the call is not repeated | `Engine.C90_violated` |
| C91 | `sfptpd_engine.c` 423-460 | hot-plugging more than sixteen clocks fails an assertion | `Engine.C91_enough_violated` |
| C92 | `sfptpd_sync_module.c` 269-283 | the comparison leaves out traceability and whether the clock is remote, so a grandmaster that loses traceability is still announced as traceable | `Engine.C92_violated` |
| C93 | `sfptpd_engine.c` 1990-2050 | the holdoff timer keeps running when the selected instance recovers and so can shorten the next holdoff | `Engine.C93_violated` |
| C94 | `sfptpd_engine.c` 592-608, 1990-2050 | with `manual-startup` and no holdoff interval the candidate set at the start blocks its own selection for good | `Engine.C94_violated`, `Engine.C94_never_selected` |
| C96 | `sfptpd_engine.c` 1910-1918 | the command to step the clocks is sent to NTP modules that may not exist, failing an assertion (`sync_module crny` with no instances) | `Engine.C96_violated` |
| C97 | `sfptpd_engine.c` 2895-2899 | the result of a failed comparison of clocks is used in the clustering score | `Engine.C97_violated` |
| C98 | `sfptpd_engine.c` 2440 | an instance without a handle shuts the engine down with return code 0 | `Engine.C98_violated` |
| C101 | `sfptpd_control.c` 229-237 | what follows a command's name is not checked: `pid_adjust=ptp` sets the proportional coefficient of all servos to zero, `exit=5` exits; a datagram longer than 127 bytes is cut and obeyed; test parameters wrap | `Control.C101_violated`, `Control.C101_truncated`, `Control.C101_wrapped` |
| C102 | `sfptpd_engine.c` 2789 | a name of 63 characters is copied without its end into a message that is not cleared | `Control.C102_violated` |
| C103 | `ptpd_lib.c` 581-587, `servo.c` 131-134 | a coefficient left out in `pid_adjust` is stored as NaN in the port's options and gets into force when the port is initialised again | `Control.C103_violated`, `Control.C103_nan` |
| C104 | `protocol.c` 2779-2881 | the source of a Pdelay_Resp_Follow_Up is not compared with that of the Pdelay_Resp | `Peer.C104_violated` |
| C105 | `protocol.c` 2856 | the correction of the follow-up overwrites that of the Pdelay_Resp instead of being added | `Peer.C105_violated` |
| C106 | `protocol.c` 4022-4036 | the UTC offset is applied to each timestamp when it arrives, so a change during an exchange gives a delay wrong by half of it | `Peer.C106_violated` |
| C107 | `protocol.c` 2538-2601, 2763-2776 | one request header is kept for all askers: a follow-up may go to the wrong port, or none be sent | `Peer.C107_violated`, `Peer.C107_each_violated` |
| C109 | `protocol.c` 2087-2098 | a port that has left the master state still sends the Follow_Up | `Peer.C109_violated` |
| C110 | `protocol.c` 3838 | Delay_Resps are counted in `pdelayRespMessagesSent` | `Peer.C110_violated` |
| C111 | `management.c` 1089 | switching to peer-to-peer starts no timer | `Peer.C111_violated` |
| C112 | `protocol.c` 2651-2747 | a passive port asks but ignores the answers; an answer handled before the transmit timestamp is lost | `Peer.C112_violated`, `Peer.C112_passive_violated` |
| C113 | `protocol.c` 3438, 3657 | the number of a message that could not be sent is used up | `Peer.C113_violated` |
| C114 | `sfptpd_pps_module.c` 806-815 | seconds of the time of day and the rest of the pulse are rounded apart: near half a second the offset is wrong by a second | `Pps.C114_violated` |
| C115 | `sfptpd_pps_module.c` 835-838 | steps ignore the propagation delay | `Pps.C115_violated` |
| C117 | `sfptpd_pps_module.c` 1503-1523, 1919-1955 | the first pulse after a pause of processing is used without any check of its period | `Pps.C117_violated` |
| C118 | `sfptpd_pps_module.c` 1314-1330, 1724-1741 | the reset sets the previous state too, so the engine is not told that a slave without signal listens again | `Pps.C118_violated` |
| C119 | `sfptpd_pps_module.c` 1800-1845 | with a file descriptor the timer sets the alarm, but only a poll (a pulse) tells the engine | `Pps.C119_violated` |
| C120 | `sfptpd_pps_module.c` 1199-1231 | alarms reset the convergence measure but leave `synchronized` set | `Pps.C120_violated` |
| C121 | `sfptpd_pps_module.c` 1255-1311 | as C119: such losses are not counted | `Pps.C121_violated` |
| C123 | `sfptpd_pps_module.c` 745-785, 1958-1972 | a command to step the clocks while there is no source of the time of day sends to a NULL thread | `Pps.C123_violated` |
| C124 | `sfptpd_pps_module.c` 76-85, 1617-1688 | the time of day is relative to the clock of the asking instance but shared by all | `Pps.C124_violated` |
| C125 | `sfptpd_pps_module.c` 1617-1688 | only the instance that asks gets the alarm | `Pps.C125_violated` |
| C127 | `sfptpd_pps_module.c` 829-845 | a standby instance that would step returns early, and posts an old offset as a new measurement | `Pps.C127_violated` |
| C128 | `sfptpd_crny_module.c` 1192-1201 | `issue_get_source_stats` clears the peer entry in which the marks (selected, shortlisted, own) have just been stored, so no source is ever selected and the module never becomes a slave | `Crny.C128_violated`, `Crny.C128_never` |
| C129 | `sfptpd_crny_module.c` 1445-1446 | after a source whose statistics end its query (reference clock, no address, invalid), the machine stays in the statistics state and loses all later sources | `Crny.C129_violated` |
| C130 | `sfptpd_crny_module.c` 1776-1827 | the clock is blocked before chronyd is stopped; on success only the recorded state is reset, so the clock remains blocked | `Crny.C130_violated` |
| C131 | `sfptpd_crny_module.c` 1815-1826 | nothing is done while the module is disabled, nor is a failed command repeated, because only changes are acted on | `Crny.C131_violated` |
| C132 | `sfptpd_crny_module.c` 1399-1414 | with no sources the state is not parsed, so it stays as it was before | `Crny.C132_violated` |
| C133 | `sfptpd_crny_module.c` 1117-1143 | a negative number of sources becomes a large unsigned one, and peers beyond the table are written | `Crny.C133_violated` |
| C133 | `sfptpd_crny_module.c` 1643-1658 | the input for clustering reads the peer at index -1 | `Crny.C133_violated_cluster` |
| C134 | `sfptpd_crny_module.c` 1529-1618 | a change of constraints alone is not told to the engine | `Crny.C134_violated` |
| C135 | `sfptpd_crny_module.c` 1386-1473 | replies are not matched to requests before the machine moves on | `Crny.C135_violated` |
| C137 | `sfptpd_crny_module.c` 841-856 | only arguments that begin with `-x` are recognised | `Crny.C137_violated` |
| C139 | `sfptpd_clock.c` 1923-1975 | the leap status of the system clock is written to the kernel although the clock is blocked for chronyd | `Clock.C139_violated` |
| C141 | `sfptpd_clock.c` 1871-1891 | the number of ticks is rounded to nearest, so up to half a tick (50 ppm) of a request beyond the tolerance is lost to the second limit | `Clock.C141_violated` |
| C142 | `sfptpd_clock.c` 1766-1785, 2149-2183 | setting a read-only or blocked clock returns success | `Clock.C142_violated` |
| C143 | `sfptpd_clock.c` 2167-2170 | the threshold is compared with the signed difference | `Clock.C143_violated` |
| C144 | `sfptpd_clock.c` 1091-1102, `sfptpd_phc.c` 1346-1351 | recording a step on a NIC clock without PHC fails an assertion; after an adapter has gone any step aborts the daemon | `Clock.C144_violated` |
| C145 | `sfptpd_clock.c` 2155, 2174-2176 | the mark of the initial correction is never reset, so an adapter that is inserted again with the time of 1970 is not set | `Clock.C145_violated` |
| C146 | `sfptpd_clock.c` 1542-1548 | an unmatched unblock makes the counter negative and undoes the block of another user | `Clock.C146_violated` |
| C147 | `sfptpd_clock.c` 1963-1974 | the clock state returned by adjtimex (5 if unsynchronised) is returned as if an error number | `Clock.C147_violated` |
| C148 | `sfptpd_clock.c` 1996-2002 | clocks that are not to be disciplined are stepped at a leap second | `Clock.C148_violated` |
| C149 | `sfptpd_clock.c` 1348 | misplaced parenthesis: `memcmp(a, b, sizeof(...) == 0)` compares no bytes, and no clock is found | `Clock.C149_violated` |
| C151 | `sfptpd_clock.c` 1457-1466 | a correction at the limit may be rounded beyond it in the file, which is then deleted | `Clock.C151_violated` |
| C153 | `sfptpd_clock.c` 519-527 | the error for an entry of the clock list is overwritten by the next entry | `Clock.C153_violated` |
| C154 | `sfptpd_clock.c` 1072-1078 | when a new clock cannot be configured all clocks are shut down in the middle of a scan that goes on | `Clock.C154_violated` |
| C155 | `sfptpd_interface.c` 1528-1538 | each link event rewrites the frequency of the clock with the saved value or zero | `Clock.C155_violated` |
| C157 | `sfptpd_clock.c` 815-843 | a PHC that is open is kept when the interface has a PHC of another number | `Clock.C157_violated` |
| C159 | `sfptpd_general_config.c` 574-625 | the end mark after a shorter list of PPS methods is written into the rules of the selection policy: the rest of the previous order stays in effect and the rules are altered | `Phc.C159_violated`, `Phc.C159_rules_violated` |
| C164 | `sfptpd_phc.c` 600-620 | near half a second the difference by pulses is wrong by a whole second | `Phc.C164_violated` |
| C165 | `sfptpd_phc.c` 600-620 | a pulse exactly at the second gives a billion nanoseconds | `Phc.C165_violated` |
| C166 | `sfptpd_phc.c` 305-310 | an empty directory of PPS devices leaves no error number, and pulses are taken to be usable although no device was opened | `Phc.C166_violated` |
| C167 | `sfptpd_phc.c` 398, 447 | names of PPS devices are read with `%16s` into 16 bytes | `Phc.C167_violated` |
| C169 | `sfptpd_phc.c` 573-577 | a pulse pending at the time of a step is used after it | `Phc.C169_violated` |
| C170 | `sfptpd_phc.c` 573-577, 621-632 | a difference of zero is returned that was never measured | `Phc.C170_violated` |
| C171 | `sfptpd_phc.c` 390-498 | the companion device of another clock is taken for that of the clock | `Phc.C171_violated` |
| C173 | `sfptpd_phc.c` 1022-1061 | the empty record of the kernel before the first pulse is reported as an event | `Phc.C173_violated` |
| C177 | `ntp/sfptpd_ntp_module.c` 643 | the test for a new offset after a step is inverted: a new offset never ends the wait, while an error or the loss of the peer does and lets the old offset be used | `Ntp.C177_violated`, `Ntp.C177_old_violated` |
| C179 | `ntp/sfptpd_ntp_module.c` 1037-1056 | constraints set by a failed command of the engine are not reported | `Ntp.C179_violated` |
| C180 | `ntp/sfptpd_ntp_module.c` 948-953, 1049-1054 | a constraint is set without clearing its opposite | `Ntp.C180_violated` |
| C181 | `ntp/sfptpd_ntp_module.c` 908, 1177 | the peer at index -1 is read when none is selected | `Ntp.C181_violated`, `Ntp.C181_cluster_violated` |
| C182 | `ntp/sfptpd_ntpd_client.c` 45 | an ntpd that stops is reported as faulty, never again as disabled | `Ntp.C182_violated` |
| C183 | `ntp/sfptpd_ntpd_client.c` 45 | a protocol once chosen is kept when ntpd no longer speaks it | `Ntp.C183_violated` |
| C184 | `ntp/sfptpd_ntp_module.c` 826-832 | the second poll follows at once, and missed polls are made up for without a pause | `Ntp.C184_violated` |
| C185 | `ntp/sfptpd_ntp_module.c` 1299-1306 | statistics on a new offset are sent from the old state | `Ntp.C185_violated` |
| C186 | `ntp/sfptpd_ntp_module.c` 938-940 | without an instance, an ntpd that begins to control the clock after the start is only logged | `Ntp.C186_violated` |
| C187 | `ntp/sfptpd_ntp_module.c` 1295-1297 | a failed correction of ntpd is not repeated | `Ntp.C187_violated` |
| C188 | `ntp/sfptpd_ntp_module.c` 487-503 | after an error the last offset, accuracy and stratum are reported; before the first answer an accuracy of 0 | `Ntp.C188_violated`, `Ntp.C188_first_violated` |
| C191 | `ntp/sfptpd_ntpd_client_mode6.c` 694-698 | an error code above 7 in a reply reads the table of errors outside its bounds | `Ntp6.C191_violated` |
| C193 | `ntp/sfptpd_ntpd_client_mode6.c` 370-379 | the table of errors lacks `CERR_BADASSOC`, so that codes 4 to 6 are translated wrongly and code 7 (restricted) becomes success | `Ntp6.C193_violated` |
| C194 | `ntp/sfptpd_ntpd_client_mode6.c` 703-706 | a packet about another association is logged but used | `Ntp6.C194_violated` |
| C195 | `ntp/sfptpd_ntpd_client_mode6.c` 822-831 | fragments beyond the final one are added to the reply | `Ntp6.C195_violated` |
| C198 | `ntp/sfptpd_ntpd_client_mode6.c` 1071-1083, 1276 | `peeradr` without a value is a null pointer; a bracket that is not closed is searched for one byte beyond the array | `Ntp6.C198_violated`, `Ntp6.C198_bracket_violated` |
| C201 | `ntp/sfptpd_ntpd_client_mode6.c` 1369-1392 | the table is indexed by association but counted by peer: entries after one that is passed over are lost; no check against the 32 entries | `Ntp6.C201_violated`, `Ntp6.C201_overrun` |
| C202 | `ntp/sfptpd_ntpd_client_mode6.c` 1341-1342, 1387-1389 | a failed query for the list is success; a failed query for a peer is success if the last one succeeds, and its entry keeps what it had | `Ntp6.C202_violated`, `Ntp6.C202_peer_violated` |
| C203 | `ntp/sfptpd_ntpd_client_mode6.c` 1487-1488 | the answer is compared without regard to its size, so that an empty one is taken for the last success | `Ntp6.C203_violated` |
| C209 | `ntp/sfptpd_ntpd_client_mode7.c` 1022, 1114 | `have_seq` is never set, so that a repeated part is counted and completes an answer of which another part is missing; parts are put together in the order of arrival | `Ntp7.C209_violated`, `Ntp7.C209_violated_duplicate` |
| C210 | `ntp/sfptpd_ntpd_client_mode7.c` 1085 | an error code above 7 reads the table of errors outside its bounds, before the test in the next line | `Ntp7.C210_violated` |
| C213 | `ntp/sfptpd_ntpd_client_mode7.c` 1302-1342 | success without items reports what an earlier answer left in the buffer; the result of `getnameinfo` is returned as the result | `Ntp7.C213_violated`, `Ntp7.C213_violated_empty` |
| C217 | `ntp/sfptpd_ntpd_client_mode7.c` 1432-1435 | a peer without statistics keeps the root dispersion of whichever peer had the entry before | `Ntp7.C217_violated` |
| C218 | `ntp/sfptpd_ntpd_client_mode7.c` 829, 1488-1490 | the difference of two IPv4 addresses overflows `int`; information about IPv6 peers is not compared | `Ntp7.C218_violated`, `Ntp7.C218_violated_v6` |
| C221 | `ntp/sfptpd_ntpd_client_mode7.c` 1188 | the emptying of the socket ends at an empty datagram or an error, and mode 7 answers carry no number of the query | `Ntp7.C221_violated` |
| C224 | `ptp/sfptpd_ptp_module.c` 1561-1567 | a VLAN whose lower link is itself, or VLANs in a cycle (as with links in different network namespaces), make the search go on for ever | `Bond.C224_violated` |
| C227 | `ptp/sfptpd_ptp_module.c` 1366-1520 | a bond in an unsupported mode without slaves: EINVAL is overwritten by ENOENT and an assertion fails | `Bond.C227_violated` |
| C229 | `ptp/sfptpd_ptp_module.c` 1366-1520 | for LACP and bridges without slaves the stale first entry becomes the active interface | `Bond.C229_violated` |
| C230 | `ptp/sfptpd_ptp_module.c` 1201-1260, 1366-1520 | the active slave of a bond in a bridge is replaced by the first slave with a link | `Bond.C230_violated` |
| C232 | `ptp/sfptpd_ptp_module.c` 1244, 1311 | the active slave is compared with the link of the slave instead of that of the bond; no slave is ever primary | `Bond.C232_violated` |
| C233, C234 | `ptp/sfptpd_ptp_module.c` 587-649 | the search starts with the first slave even when it is down | `Bond.C233_violated`, `Bond.C234_violated` |
| C236 | `ptp/sfptpd_ptp_module.c` 1813, 1858 | the interface of a port is chosen from the old record, which is replaced after | `Bond.C236_violated` |
| C237 | `ptp/sfptpd_ptp_module.c` 1862-1869 | the alarm is cleared though no interface is in use | `Bond.C237_violated` |
| C238 | `ptp/sfptpd_ptp_module.c` 1827-1835 | the result of one instance is overwritten by that of the next | `Bond.C238_violated` |
| C239 | `ptp/sfptpd_ptp_module.c` 1828 | ptpd is given the address of a local variable to keep | `Bond.C239_violated` |
| C240 | `ptp/sfptpd_ptp_module.c` 1006-1077 | timestamping of a slave that leaves is judged by the new type | `Bond.C240_violated` |
| C244 | `ptp/sfptpd_ptp_module.c` 403-441 | an unknown clock class is announced as 255 (slave only) and read back as free-running | `PtpMod.C244_violated` |
| C252 | `ptp/sfptpd_ptp_module.c` 1999-2045 | time and frequency traceability are part of the status but a change of them is not reported | `PtpMod.C252_violated` |
| C253 | `ptp/sfptpd_ptp_module.c` 1977-2085 | the change of the synchronised flag is looked for before it is updated, so it is published one tick late | `PtpMod.C253_violated` |
| C254 | `ptp/sfptpd_ptp_module.c` 1975, 2023, 2092 | the offset for clustering is read before the new snapshot is taken | `PtpMod.C254_violated` |
| C255 | `ptp/sfptpd_ptp_module.c` 2141-2158 | a leap second announced before the instance is selected is never scheduled | `PtpMod.C255_violated` |
| C257 | `ptp/sfptpd_ptp_module.c` 2372-2401 | the answer to a status request leaves the clustering score as it was in the message | `PtpMod.C257_violated` |
| C258 | `ptp/sfptpd_ptp_module.c` 2184-2205 | descriptors are fetched before the instances are updated; sockets reopened by `ptpd_change_interface` are not polled if their numbers differ | `PtpMod.C258_violated` |
| C259 | `ptp/sfptpd_ptp_module.c` 3282-3288 | the result of `sfptpd_clock_compare` is ignored | `PtpMod.C259_violated` |
| C260 | `ptp/sfptpd_ptp_module.c` 3702, 3827 | the convergence threshold is set before the kind of timestamping is determined | `PtpMod.C260_violated` |
| C261 | `ptp/sfptpd_ptp_module.c` 844-850, 3758-3780 | the need for multicast is written to the configuration of the last instance and read from that of the first; with two domains on an interface the groups are not joined | `PtpMod.C261_violated` |
| C265 | `sfptpd_netlink.c` 656-670 | the description of a team keeps the whole bonding record of its former row, its master included | `Netlink.C265_violated` |
| C267 | `sfptpd_netlink.c` 963-996 | the table of attributes is not cleared between options; an option without a value takes that of the option before it | `Netlink.C267_violated` |
| C268 | `sfptpd_netlink.c` 1031-1055 | the rounding of the size wraps round, so that an empty payload is read | `Netlink.C268_violated` |
| C271 | `sfptpd_netlink.c` 372-435, 1413-1459 | queries are composed in the buffer that holds the messages being read; the rest of the datagram is lost | `Netlink.C271_violated` |
| C272 | `sfptpd_netlink.c` 402-435 | when `sendto` fails the query is reported as sent and not tried again | `Netlink.C272_violated` |
| C273 | `sfptpd_netlink.c` 402-435, 477-704 | that a query was sent is noted in a copy of the row; the next scan sends it again | `Netlink.C273_violated` |
| C276 | `sfptpd_netlink.c` 1614-1660 | an error after messages were handled leaves the table unsorted; the next comparison fails an assertion | `Netlink.C276_violated` |
| C280 | `sfptpd_netlink.c` 1461-1476 | the number of versions searched grows without bound; looking for an unknown version reads before the array | `Netlink.C280_violated` |
| C283 | `sfptpd_netlink.c` 1945-2023 | a wake-up without changes ends the wait with NULL and `errno` unset | `Netlink.C283_violated` |
| C291 | `sfptpd_freerun_module.c` 316-327 | a VLAN whose lower link is not in the table (another namespace) makes the module loop forever at start | `Freerun.C291_violated` |
| C297 | `sfptpd_freerun_module.c` 841-845, 866-871 | if an instance does not start the instances are not freed | `Freerun.C297_violated` |
| C301 | `sfptpd_sync_module.c` 90 | the name of the alarm for mismatched capabilities ends in a blank | `SyncText.C301_violated` |
| C302 | `sfptpd_sync_module.c` 290-303 | a change of traceability alone is not passed on to master instances | `SyncText.C302_violated` |
| C304 | `sfptpd_interface.c` 1214-1217, 1477-1505 | an interface replugged with a new index is shadowed by its old object when looked up by name | `Intf.C304_violated` |
| C305 | `sfptpd_interface.c` 1187-1204, 1441-1460 | an alias is never cleared when its interface comes back: two objects may be aliases of each other and every call hangs, with the lock held | `Intf.C305_violated` |
| C307 | `sfptpd_interface.c` 1957-1975 | the name of the device is copied before it is refreshed: a request may go to another interface that has taken the name | `Intf.C307_violated` |
| C309 | `sfptpd_interface.c` 594-627, 1768-1797 | transmit time stamping types are only looked at by a test whose result is ignored | `Intf.C309_violated` |
| C311 | `sfptpd_interface.c` 1173-1180, 1315-1318 | an interface that does not support a request is freed while not marked deleted: the assertion fails | `Intf.C311_violated` |
| C312 | `sfptpd_interface.c` 911-912 | memory for statistics is allocated at each change of a link and the former is lost | `Intf.C312_violated` |
| C313 | `sfptpd_interface.c` 940-1047 | a port that comes back keeps its number though the other port of its NIC has got another meanwhile | `Intf.C313_violated` |
| C315 | `sfptpd_priv_helper.c` 155-202 | an end of the connection (0 bytes) or an error of `recv` is followed by acting on the uninitialised request, usually the last one again | `Priv.C315_violated` |
| C316 | `sfptpd_priv_helper.c` 175-230 | with SIGPIPE ignored (the default for services of systemd) the helper never ends and repeats the last request, e.g. restarting chronyd | `Priv.C316_violated` |
| C317 | `sfptpd_crny_helper.c` 139-151, `sfptpd_priv_helper.c` 110 | a socket with a connection in progress is neither handed over nor closed, and the step is called success | `Priv.C317_violated` |
| C319 | `sfptpd_priv.c` 179-206, 375 | 0 bytes from `recvmsg` count as success: opening a device returns descriptor 0 | `Priv.C319_violated` |
| C320 | `sfptpd_priv.c` 179-206, 396 | as C319: control of chronyd reports success though nothing was done | `Priv.C320_violated` |
| C321 | `sfptpd_priv.c` 295-316 | as C319: a helper that cannot be executed counts as started | `Priv.C321_violated` |
| C322 | `sfptpd_priv.c` 340 | the name of the failing step is assigned to the parameter and never reaches the caller | `Priv.C322_violated` |
| C323 | `sfptpd_priv.c` 160-166 | the lock is not released when sending fails: another thread waits for ever | `Priv.C323_violated` |
| C324 | `sfptpd_priv.c` 162 | sending without `MSG_NOSIGNAL` to a helper that has gone ends the daemon by SIGPIPE | `Priv.C324_violated` |
| C326 | `sfptpd_crny_helper.c` 294-306 | a section without its last line is deleted up to the end of the file | `Priv.C326_violated` |
| C327 | `sfptpd_crny_helper.c` 268-269 | a file without a newline at the end is taken as one line: the options of the user are overridden; a comment behind an unquoted value becomes part of the options | `Priv.C327_violated`, `Priv.C327_comment` |
| C328 | `sfptpd_crny_helper.c` 244, 268-278 | as C327: the line has no terminator, and if the file fills its pages the pattern matcher reads beyond the mapping | `Priv.C328_violated` |
| C329 | `sfptpd_crny_helper.c` 379-390 | the value of `system` is compared with 127 and 4 without `WEXITSTATUS`: the way without systemd is unreachable | `Priv.C329_violated` |
| C330 | `sfptpd_crny_helper.c` 251, 314-316 | failing to make a stream returns the code of `regcomp`, which is success | `Priv.C330_violated` |
| C332 | `sfptpd_ptp_config.c` 95-122 | the profile `default-p2p` does not select the peer-to-peer mechanism: the instance keeps the end-to-end one, which the profile does not support | `PtpConf.C332_violated` |
| C338 | `sfptpd_ptp_config.c` 1484-1488 | `ptp_mgmt_acl_permit` is bound to the handler of the list for timing messages: management stays open and other masters are shut out | `PtpConf.C338_violated` |
| C339 | `sfptpd_config.c` 380-393, `sfptpd_ptp_config.c` 1104-1176 | `mon_monitor_address` in the global section after an instance with six stations fails an assertion | `PtpConf.C339_violated` |
| C342 | `sfptpd_ptp_config.c` 941-1025 | `nan` passes both comparisons and becomes a coefficient | `PtpConf.C342_violated` |
| C343 | `sfptpd_ptp_config.c` 172-180 | names longer than 15 characters are cut without an error | `PtpConf.C343_violated` |
| C344 | `sfptpd_ptp_config.c` 482-503 | `sscanf` ignores what follows a number (`12,14` is 12) and numbers that do not fit lose their upper bits (4294967299 is 3) | `PtpConf.C344_violated`, `PtpConf.C344_overflow` |
| C349 | `sfptpd_multicast.c` lines 411-441 | Events are posted before messages are allocated, so a send that fails with EAGAIN has told some subscribers | `Mcast.C349_violated` |
| C350 | `sfptpd_multicast.c` lines 398-411 | The group is looked up before the lock is taken; the last user may leave in between and free it. The array of recipients is also used without checking its allocation (line 421) | `Mcast.C350_violated` |
| C351 | `sfptpd_multicast.c` lines 443-462 | Messages are sent after the lock is released to threads that may have unsubscribed since | `Mcast.C351_violated` |
| C353, C354 | `sfptpd_general_config.c` lines 1877-1878 | The condition on the level of threading sets the level of the servo: `-v -v` lowers it to 1 and leaves threading at 0 | `GenConf.C353_violated`, `GenConf.C354_violated` |
| C355 | `sfptpd_general_config.c` line 1258 | `trace_level` with three parameters fails an assertion | `GenConf.C355_violated` |
| C356 | `sfptpd_general_config.c` lines 739-741 | The number of a user is truncated to 32 bits: `user 4294967296` runs as root | `GenConf.C356_violated` |
| C357 | `sfptpd_general_config.c` lines 748-752 | The number of a user without a record is refused (the error of the lookup is returned) though the code prepares for it | `GenConf.C357_violated` |
| C358 | `sfptpd_general_config.c` lines 736, 751, 796 | Lookup errors such as EIO are not handled and an uninitialised record is used | `GenConf.C358_violated` |
| C359 | `sfptpd_general_config.c` lines 1019, 1052, 1164 | Names longer than 23 characters are cut without a message | `GenConf.C359_violated` |
| C360 | `sfptpd_general_config.c` lines 1162-1163 | A later list of interfaces does not clear the flag for all interfaces | `GenConf.C360_violated` |
| C361 | `sfptpd_general_config.c` lines 1612-1615 | Text after the last octet is ignored | `GenConf.C361_violated` |
| C362 | `sfptpd_general_config.c` line 1619 | Octets set by an earlier, longer option remain | `GenConf.C362_violated` |
| C363 | `sfptpd_general_config.c` lines 1654-1662 | An instance of another module named `crny0` makes the daemon abort when the implicit instance is added | `GenConf.C363_violated` |
| C365 | `sfptpd_general_config.c` lines 954, 1211, 1234, 1367 | `nan` passes the range checks of the step threshold, of the PID coefficients and of the intervals of reports | `GenConf.C365_violated` |
| C373 | `sfptpd_main.c` lines 372-378, 409-410 | The lock is released before the file is removed, and the file locked is not compared with that at the path: with one daemon ending, a second starting and then a third, the second and the third both run, if the search for running programs does not see the others (another PID name space, or an executable replaced by an upgrade, whose link ends with " (deleted)") | `PidLock.C373_violated` |
| C376 | `sfptpd_main.c` lines 488-492, 963 | If `daemon()` fails the old descriptor is closed again and the lock file, perhaps of another process, is removed again | `PidLock.C376_violated` |
| C378 | `sfptpd_main.c` lines 212-220 | With `user root <group>` the group is changed but the groups of the starting user are kept; a configured group 0 is not set at all | `Start.C378_violated` |
| C381 | `sfptpd_main.c` line 552 | The error reported to the supervisor is `rc` of `connect`, always 0, not `retcode` | `Start.C381_violated` |
| C382 | `sfptpd_main.c` lines 531-537 | For an abstract socket the `@` is copied into the name and the name is padded with zeros, so the message never reaches it | `Start.C382_abstract_never` |
| C385 | `sfptpd_main.c` lines 786-808, `sfptpd_thread.c` line 1983 | Stopped with SIGTERM to all processes of the service (the default of systemd) or SIGINT from a terminal, the helper ends as well, and the daemon ends with status 10 (ECHILD) instead of 0, depending on the order of events | `Exit.C385_violated` |
| C388 | `sfptpd_logging.c` lines 751-756 | A line longer than 512 and more than twice as long as the one before may not fit and is written in parts; then the room left wraps around and nothing is flushed until the next interval | `Log.C388_violated`, `Log.C388_no_flush` |
| C389 | `sfptpd_logging.c` lines 669-673 | With no space left on the device a good state file (also of the frequency correction) is replaced by a cut or empty one | `Log.C389_violated` |
| C390 | `sfptpd_logging.c` lines 493-495, `sfptpd_main.c` line 962 | If the log cannot be opened it is closed twice: descriptors are closed again and the mutex destroyed again | `Log.C390_violated` |
| C393 | `gps/sfptpd_gps_module.c` lines 442-465, 1177 | The states disabled and faulty are overwritten at once: if gpsd dies during a fix the instance stays a slave with the last offset for ever (and `errno` is compared with negative numbers) | `Gps.C393_violated`, `Gps.C393_unnoticed` |
| C395 | `gps/sfptpd_gps_module.c` lines 350-352 | The offset given to the convergence measure is always 0, so any offset counts as synchronized after a minute | `Gps.C395_violated` |
| C396 | `gps/sfptpd_gps_module.c` line 652 | After a step of the clock the offset measured before is still offered | `Gps.C396_violated` |
| C397 | `gps/sfptpd_gps_module.c` lines 1140, 461-462 | A fix alone makes the instance a slave, with an offset of 0 that nobody has measured | `Gps.C397_violated` |
| C398 | `gps/sfptpd_gps_module.c` lines 1162-1165 | A report that changes the accuracy only is thrown away: a slave goes on to offer the old accuracy | `Gps.C398_violated` |

Noticed while reading, but not stated as theorems:

* `foreign.c`, `bmc.c`: copyD0 leaves portNumber unset; the foreign master timer is not
  serviced as a master; a slaveOnly setting made by management is lost on re-initialisation.
* `ipv4_acl.c`: text that is not a number is 0; with an IPv6 transport the timing and
  management lists are never created and everything is refused.
* `sfptpd_statistics.c`: an absent first item gives a leading comma in the JSON;
  collection_add reports success when allocation failed.
* `sfptpd_config.c`: lines above 1023 characters are split; errors return without closing
  the file; negative results of handlers count as success.
* `sfptpd_multicast.c`: group lookup without the lock, unchecked allocation.
* `general_config.c:1504-1516`: limit_freq_adj is not validated, a negative value aborts.
* `management.c` handleMMTime: the UTC offset is subtracted from a UTC time; values set are
  not validated.
* `dep/timer.c`: an expiry already noted survives timerStop.
* `link.c`: by_name and by_if_index give the last match.
* `sfptpd_crny_module.c`: chronyd's saved configuration is not restored at shutdown; a step of the clock
  during a poll is forgotten when the poll ends; a reply timeout keeps the old state; the assertion on the length in
  `crny_addr_to_sockaddr` can fail; `failing_step` of `sfptpd_priv_open_chrony` is not set on every path.
