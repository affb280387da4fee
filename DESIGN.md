# Formal model of ProtonMail/go-rfc5322 in Lean 4 — design

## 1. What is modelled

| Layer | Code in /repo | Lean module |
|---|---|---|
| Go strings, `[]rune(s)`, `string(runes)` | used through `antlr.NewInputStream(input)` (parser.go:24,47) and `ctx.GetText()` | `Verif/Model/Utf8.lean` |
| Lexer | RFC5322Lexer.g4, parser/rfc5322_lexer.go (ATN) | `Verif/Model/Lexer.lean` |
| Grammar, one definition per rule | RFC5322Parser.g4, parser/rfc5322_parser.go (one function per rule + ATN) | `Verif/Model/Grammar.lean` |
| Generated recursive-descent parser driven by `AdaptivePredict` | parser/rfc5322_parser.go | `Verif/Model/Parser.lean` |
| Standard-library calls made by the walker (`strconv.Atoi`, `strings.ToLower`, `strings.Join`, `fmt.Sprintf("%v@%v")`, `time.ParseDuration`, `time.FixedZone`, `time.Date`) | all `*.go` files | `Verif/Model/GoStd.lean` |
| Tree walker: node stack, every `EnterX`/`ExitX`/`withX` callback | walker.go and the 40 rule files | `Verif/Model/Walker.lean` |
| `ParseAddressList`, `ParseDateTime` | parser.go | `Verif/Model/Api.lean` |
| The serialized networks (ATNs) of lexer and parser, their format, and paths through them | parser/rfc5322_lexer.go:74-203, parser/rfc5322_parser.go:66-603 | `Verif/Model/Atn.lean`, `AtnData.lean`, `AtnNets.lean` |
| The two grammar files, copied as they are, and a reader of their format | RFC5322Lexer.g4, RFC5322Parser.g4 | `Verif/Model/G4Data.lean`, `G4.lean` |
| The 67 functions of the generated parser, statement by statement | parser/rfc5322_parser.go:872-14929 | `Verif/Model/Generated.lean`, `GeneratedData.lean`, `GeneratedApi.lean` |
| The hand-written package, copied as it is (41 types, 132 functions), and the part of Go it is written in: heap, pointers, slices over arrays, interfaces, type assertions | all `*.go` files in the root, except tests | `Verif/Model/GoLang.lean`, `GoIdent.lean`, `GoCode.lean`, `Source.lean` |
| Prediction and synchronisation of the ANTLR runtime: ALL(*) with its two stages, sets of configurations, tables | called from parser/rfc5322_parser.go:872-14929, tables made at :605-609 | `Verif/Model/AllStar.lean`, `AllStarCache.lean` |
| The error strategy of the ANTLR runtime, and the `defer` of every generated function | parser/rfc5322_parser.go:872-14929 | `Verif/Model/Recovery.lean` |
| The texts of error messages | walker.go:43-45, parser/rfc5322_parser.go:35-51 (and the ANTLR runtime, from memory) | `Verif/Model/Messages.lean` |
| The lexer of the ANTLR runtime with its tables | created by parser/rfc5322_lexer.go:222-240 | `Verif/Model/LexerSim.lean` |
| All of these together, in a process | parser.go:17-62 | `Verif/Model/Whole.lean` |
| `CharsetReader` and call histories | parser.go:13-15 | `Verif/Model/History.lean` |
| `time.Time.Format` (Go 1.16 `time/format.go`, `time/time.go`), which writes the dates of C75 | parser.go:42 | `Verif/Model/GoFormat.lean` |
| A `CharsetReader` with side effects, or that panics | parser.go:12-16, encoded_word.go:13-24 | `Verif/Model/Effects.lean` |
| `mime.WordDecoder.Decode` as called in encoded_word.go:14-18 (Go 1.16 `mime/encodedword.go`, `encoding/base64`) | encoded_word.go | `Verif/Model/Mime.lean` |
| `(*mail.Address).String` of the values returned (Go 1.16 `net/mail`), used only to state round trips | the `[]*mail.Address` result | `Verif/Model/MailString.lean` |

The parser model has two forms, proved equal:

* `descend P` — the shape of the generated Go code: a recursive descent which at every `|`, `?`, `*`, `+`
  asks the predictor `P` (the ANTLR runtime's `AdaptivePredict`, or a LL(1) `switch` on `LA(1)`) which way to
  go, given the complete call stack and remaining input. `none` means "some `SyntaxError` was reported".
* `search` — ordered exhaustive search for the first derivation of the whole input.

The ANTLR runtime is *not* in /repo. It enters only through `structure Predictor`, whose contract is the one
proved for ALL(*) (Parr, Harwell, Fisher 2014): the predictor returns the smallest-numbered alternative that can
be completed to a match of the whole remaining input in the current call stack, whenever one exists; when none
exists it may return anything. Every property theorem quantifies over all predictors meeting the contract, so it
holds for every cache state of the runtime. `Predictor.nonempty` shows that the contract is satisfiable.

An independent, readable specification (`Verif/Spec/*.lean`) has no reference to grammar expressions, trees or the
walker. `Verif/Proofs/*` relates the two; `Verif/Props/*` contains the property theorems only.

| Spec module | Content |
|---|---|
| `Chars`, `Address`, `Date` | the address-list and date-time languages as predicates on lists of characters, with the value each text denotes (all readings) |
| `Preferred` | which derivation is taken when there are several: earlier alternatives and longer repetitions first, subject to the rest of the input being matched |
| `Text` | `ReadsAs`: what text a Go string holds (ill-formed bytes are U+FFFD) |
| `Strip`, `DateText` | a text without its comments and white space; dates as lists of fields |
| `Clear` | the usual way of writing mailboxes, groups and lists, with their one intended value |
| `Escape`, `Format`, `Rfc2047` | quoting of arbitrary text, `String`, encoded words |
| `GoResult` | what a caller finds on the heap: the addresses in a slice, the objects it refers to, the error |
| `Skeleton`, `Pieces` | separators at top level, and the items between them |
| `Exact`, `Groups` | one mailbox, or one group, written out in full with the addresses it denotes |
| `G4` | what a rule of an ANTLR grammar file means (the texts an EBNF element matches), for C65 |
| `Rfc5322` | the ABNF of RFC 5322 as text, its reader and the meaning of ABNF, and the listed changes that lead from it to the accepted language, for C64 |
| `RfcChanges` | the rules with one of these changes undone, for C64 |
| `Civil` | the dates of the calendar, their order and day of the week, for C75 |
| `Messages` | what error messages look like, for C76, and when they make sense, for C78 |
| `RfcMeaning`, `RfcDate` | what RFC 5322 says an address list or a date-time means, for C66 |
| `RfcObsDate` | what RFC 5322 says a date-time in the obsolete syntax means, for C71 |
| `RfcObsolete` | what RFC 5322 says an address list in the obsolete syntax means, for C72 |
| `RfcNames` | what RFC 2047 says that display names with encoded words mean, for C73 |
| `Reader` | which words are found in a text, and which of them ask the `CharsetReader`, for C74 |

The proof layers: `Search`/`Descend` (parser = ordered search), `Tok`…`Lists` (`Means`: each grammar rule is sound and complete
for its Spec predicate and walking its tree has the effect of the value), `Preferred`, `Picks`/`Greedy`/`Takes` (forward
reasoning about the preferred derivation), `Strip`/`Source`/`Breaks`/`Shape` (facts about all readings), `Clear*` (clear-cut
texts), `Skeleton`/`Split`/`ObsList` (items of lists), `Mime`/`DecodeLocal`/`MailString` (encoded words and `String`).

## 2. Trusted base

* Lean 4.33 kernel. Axioms used: at most `propext`, `Classical.choice`, `Quot.sound`.
* The transcription of the Go code into the model. For grammar and lexer only the *copy of the integers* of the serialized ATNs
  (`tools/gen_atn.py`, line by line, `Verif/Model/AtnData.lean`) and the reading of their format (`Verif/Model/Atn.lean`, after ANTLR 4.10's
  `ATNDeserializer`) are trusted: C59 proves in Lean that the paths of those networks are the derivations of `Grammar.lean` and that
  the lexer network yields the tokens of `Lexer.lean`. (`tools/check_grammar.sh` makes a similar comparison outside Lean.)
* For C65 the copy of the lines of the two .g4 files (`tools/gen_g4.py`), the reader of their format (`Verif/Model/G4.lean`, refusing what it does not know) and the meaning of EBNF in
  `Spec/G4.lean`. Since C59 makes the same claims of the integers in the generated files, C65 also says that the generated files and the grammar files belong together.
* For C60 the copy of the bodies of the generated functions (`tools/gen_code.py`) and the meaning given to their few patterns in
  `Verif/Model/Generated.lean`; the runtime is assumed to behave as described by `Gen.Runtime`, which speaks of the network only.
  C67 proves that the prediction algorithm of the runtime, ALL(*), as written down in `Verif/Model/AllStar.lean`, and `Sync` do. That file is from memory (the runtime is not at hand):
  what is trusted then is that the runtime implements this algorithm, with whatever graphs for its stacks (`Graphs`).
  C68 likewise trusts `Verif/Model/Recovery.lean` to be what the runtime's `DefaultErrorStrategy` does (from memory), and proves that recovery comes to an end and never turns an error into a result.
* For C61, C62 and C63 instead of the transcription in `Walker.lean` and `Api.lean`: the copy of the Go files made by `tools/gen_go.py` (a parser of the part of
  Go that is used; it stops at anything else) and the meaning of these constructs in `GoLang.lean` (with the built-in functions, the calls of other
  packages and the tree walk of the runtime). C61 proves that `Walker.lean` and `Api.lean`, of which all other properties speak, compute the same.
* The ANTLR runtime behaves as described by `Predictor`, matches terminals by token type, reports a syntax error
  iff a `Match` fails, and skips (with a message on stderr only) every rune no lexer rule matches.
  (C69 proves the last point, and that tokens are as C59 expects, of the algorithm in `Verif/Model/LexerSim.lean`, which is from memory of the runtime too.)
* The standard library functions listed above behave as `GoStd.lean` says (Go 1.16 sources).

## 3. What is not modelled

* How much of the input a `no viable alternative` quotes (C76 and C78 hold for any); trees with error nodes (parser.go:32, 55
  discard them). Error recovery is modelled in C68, C70, C76, C77 and C78 only; elsewhere the first error ends a run.
* Goroutine stack exhaustion on megabyte-deep comment nesting (C53 bounds the depth), time and memory used inside one prediction
  (C52 bounds the number of steps), stderr output of the lexer.
* A `CharsetReader` that panics or changes variables is modelled in C74 only (there it is a function with a state, which may contain the variable `CharsetReader`
  itself; what other goroutines do in the meantime is in C51, with readers that are functions). Torn reads of the variable `CharsetReader` under a data race (in C51
  assignments, reads and single predictions are atomic; the ANTLR runtime protects its caches with mutexes of its own).
* C01–C41 treat the decoder of encoded words as an arbitrary function from the encoded-word text to `some` decoded bytes or
  `none` for an error, so they do not depend on `Mime.lean`. C42–C46 and part of C49 use the model of Go 1.16's decoder, with the
  installed `CharsetReader` as an arbitrary function from charset and bytes to bytes or an error (reader errors in the middle of
  the text count as errors).
* C01–C60 use lists instead of slices; C61 and C62 have arrays on a heap, in-place `append` with any growth policy, and aliasing. Integer overflow is not
  modelled; it cannot occur, since the grammar admits numbers of at most four digits.
* Calls running at the same time: C51 has their predictions and their reads of `CharsetReader`, C63 the single accesses of the hand-written package to the heap
  (accesses to whole objects, one at a time; since C63 shows that nothing is shared, the Go memory model allows no other outcomes). The
  objects and caches of the ANTLR runtime are not on that heap, and `CharsetReader` does not change during a call in C63 (it does in C51).

## 4. Plan per property

See `properties.jsonl` for the statements.

* C01 unfold; C02, C03: invariant of the walker over all derivation trees: each subtree run from a non-empty stack
  leaves the stack below untouched and delivers one value to its parent ("refinement of the stack machine by the
  attribute grammar"); error branches are excluded because the relevant text is fixed by the grammar.
* C04, C05, C06: `search` is sound and complete for derivations; derivations correspond to the Spec relation, both ways.
* C07: `descend P = search` for every `P` meeting the contract; `search` returns the derivation with the
  lexicographically least trace of decisions.
* C08, C09: lexer/decoder lemmas; C09 by UTF-8 decoding/encoding inverse on all code points.
* C10–C20, C27: forward reasoning with "first result" lemmas for each rule of the grammar, plus failure of earlier
  alternatives obtained from soundness.
* C21–C26, C28: induction over the Spec relation.
* C29–C39: unambiguity of the date language (a stripping function that removes CFWS, then positional decoding),
  giving `ParseDateTime input = ok v ↔ DateTimeSpec … v`; the rest are consequences. C39 compares the
  Go algorithm with naive day counting.
* C40: state machine over histories.
* C41, C47, C48: the skeleton of an accepted text (an automaton that knows comments, quoted strings and domain literals) has its
  separators exactly where the items of the reading end (`Split`), hence items can be parsed on their own. Encoded words take part
  as long as they are free of list punctuation (`TameWords`), colons as long as they are hidden (`HiddenColons`): then no item can be a
  group, have a port or a route.
* C42–C45: the decoder model on well-formed encoded words; C43/C45 by congruence of the walk in its environment.
* C46: the output of `String` is clear-cut text with the value it came from.
* C49: forward reasoning (`Takes`) about the third alternative of local-part; the first two fail because of what follows the first word.
* C50: forward reasoning about the obsolete phrase (`Proofs/Dotted.lean`): every derivation of a prefix of the name as words and
  punctuation ends at a boundary between pieces (`Walls`, `Stuff` in `Proofs/Stuff.lean`), so the longest reading is the only one
  that `<` or `:` can follow.
* C51: a small-step version of parser and walker (`Model/Concurrent.lean`), proved to follow the ordered choice whatever predictors
  it meets (`Proofs/Machine.lean`), interleaved with everything else (`Concurrent`, `Schedule`, `Sim`, `Mixture`): invariant over all
  executions for the results, well-founded measure for termination, explicit executions for non-atomicity.
* C52: a potential function (tokens left, expressions on the stack, callbacks due) that every step decreases; the stack is bounded by an
  invariant (`Proofs/Work.lean`). The time and memory of one prediction are not modelled.
* C53: invariants for the stack and for the trees being built: every rule but `comment` is nested to a fixed depth, and every open
  comment has consumed a `(` (`Proofs/Depth.lean`).
* C54: induction over the Spec relation, with the expansion of the decoder as a parameter (`Proofs/Size.lean`).
* C55: every reading of such a text can be rewritten as a list of clear-cut mailboxes (adjacent CFWS merge, adjacent atoms merge), and clear-cut
  lists have a known result (`Proofs/Exact.lean`); the value is given by a separate decoder-free specification (`Spec/Exact.lean`).
* C56, C57: the list specification of C55 is closed under these changes, with the same value (`Proofs/Squeeze.lean`).
* C58: the preferred derivation of a list with groups (`Spec/Groups.lean`, `Proofs/Groups.lean`); the quotation mark allowed before a group is not taken because
  no display name followed by a colon can be found behind it, which the skeleton of the text shows.
* C59: a checker that compares the network with a certificate, rule by rule, is proved sound (`AtnCheck`, `Atn`, `AtnRules`, `AtnPref`: a successful
  check means that paths are derivations and preferred paths are preferred derivations) and run by the kernel on the integers of the
  program (`AtnNets`). The certificates (`AtnCert`, generated) need not be trusted.
* C60: `tools/gen_code.py` turns the text of the generated functions into terms of a small language (strict patterns, every line has to match).
  `chk` (`GenCheck`) follows a function through the network, with a table of what can come next in each state (`GenLook`, checked). Proved: a
  successful check means that runs without an error are paths (`GenSound`) and that the preferred path, if there is one, is the one
  followed (`GenPref`: the call stack of invoking states gives what may come after the rule); a second check (bodies of loops
  consume tokens, functions called before a token is consumed have smaller rank) means termination (`GenTerm`). The kernel runs both checks
  (`GenNets`). The tables need not be trusted.
* C61: simulation. `Rep` relates a heap to a walker of the model (`GoRep`, `GoStack`: stack of node structs, all distinct, slices with room behind
  them that nobody else sees); every listener method, run statement by statement, keeps the relation (`GoWith`, `GoEnter`, `GoExit`), hence the walk over any
  tree (`GoWalk`), hence the two functions (`GoApi`); with C60 for the parser.
* C62: the same relation carries the set of objects made since the start of the call; all writes go to these, and the result is distinct fresh objects among them.
* C63: computations are trees of single accesses (`GoLang.lean`, `M`). Two runs of the same code with different addresses and capacities are related access by access
  (`GoRel`, `GoRel2`: no construct of the language sees an address); in every reachable state (`GoShared`) each call is so related to a run alone on an empty heap, whose growth policy
  is chosen afterwards to fit, and C61 says what that run gives. Ownership is part of the same invariant; termination is the well-foundedness of the trees.
* C64: the ABNF rules of RFC 5322 are data (`Spec/Rfc5322.lean`), quoted from memory since no copy of the RFC is at hand; `Derivable` is the meaning of ABNF. The two grammars differ in
  the shape of many rules, so the proof is rule by rule, both directions, with the absorption of white space where the RFC and the package attach it to different rules (`Proofs/Rfc5322.lean`);
  then C04 and C05. Derivations for the examples come from a recogniser proved sound (`derivable_of_check`).
  That no change is superfluous (`Props/RfcChanges.lean`, with one change undone: `Spec/RfcChanges.lean`) needs texts that are *not* derived from a grammar; `Proofs/RfcRefute.lean` shows that a table of
  rules and positions that is closed under the rules contains the ends of all derivations, so that a closed table without the end in question is a proof. The tables (`Proofs/RfcTables.lean`) have been
  computed outside of the kernel; that they are closed is checked by `decide +kernel`.
* C65: the lines of the grammar files are data; `read` turns them into rules, `Spec/G4.lean` gives the meaning of rules, of tokens (longest match, first rule) and of the preferred derivation.
  The kernel evaluates a comparison of the rules read with the certificates of C59 (`files_compare`); that comparison is proved to imply equal derivations and equal preferred ones (`Proofs/G4.lean`,
  `G4Pref.lean`: induction over derivations and over the number of nodes), then C59.
* C66: `Spec/RfcMeaning.lean` and `Spec/RfcDate.lean` give the texts derived from the non-obsolete rules of the RFC (`current`, C64) their meaning, straight from the prose of sections 3.2 to 3.4;
  they do not refer to the model or to the other specifications (except for the calendar, and for `FirmGroups`). Proved: every text `current` derives has a meaning (adjacent atoms are joined), and the package returns it.
  What the package does differently in quoted strings is a parameter (`goBlanks` against `rfcBlanks`); on texts where both agree (`tidyBlanks`) the result is that of the RFC. `C66_overlooked_quotation_mark` shows that
  the condition on groups cannot be dropped. Method: the meaning implies `Spec.GroupsList` (C58) and `Spec.DateTime` (C29).
* C67: `Done` relates configurations (state and stack) to the paths of `Model/Atn.lean` (`Proofs/AllStar.lean`). Second stage: invariant that an alternative can be completed iff one of its configurations can (`Tracks`), hence
  the minimum of each set of indistinguishable alternatives can be, if any of them can. First stage: every stack is covered by a beginning of it (`Covers`), so nothing is lost and a single remaining alternative is right
  (`AllStarStages`). The kernel checks that transitions stay in their rules, and that the end of the input is needed exactly at the end of the two start rules (`AllStarParser`). Tables: invariant that entries are what
  would be computed (`AllStarCache`). Note: the contract of C60 speaks of call stacks that begin with a start rule (`Proper`); for other stacks ALL(*) does not meet it.
* C68: `Model/Recovery.lean` runs the same `Code` with the error strategy (deletion, insertion, skipping, `lastErrorIndex`/`lastErrorStates`). Termination (`RecTerm`): `measure` (tokens left, then states in which no
  error has happened at this position) decreases whenever a function makes headway, i.e. consumes a token or recovers from a new error; between two such moments functions of smaller rank only are called and no loop
  goes round (`fine`, `brisk`), which the kernel checks from a table of the token types each alternative can begin with (`RecParser`); that predictions respect this table even after errors is `RecPredict`. Reports: simulation
  of the run that stops at the first error (`RecSim`), and a potential (`RecCount`) for the number of reports.
* C69: `Model/LexerSim.lean` is the lexer's interpreter. The kernel computes the start set of the network (one configuration per rule, in the order of the rules) and, for each rule, that one matching character leads
  to its end (`lexer_rules`); the rest is reasoning about sets of such configurations for an arbitrary character. Tables: every entry is what would be computed (`Occurs.sound`).
* C70: `Model/Whole.lean` composes the models of C59 (networks), C60 (generated functions), C61 (source and heap), C67 (prediction and its tables), C68 (recovery) and C69 (lexer and its tables) into one run; the proof shows, layer by layer, that each
  delivers what the next one was proved with, so that the results of C61 hold of the whole.
* C71: `Spec/RfcObsDate.lean` gives the texts derived from the rules of the RFC with their obsolete alternatives (`restricted`, C64) their meaning, with the rule for years of two digits as a parameter;
  `Proofs/RfcObsDate.lean` turns derivations into meanings and back (`C71_every_date`), and meanings into the specification of dates of C35. The rules of the RFC and of the package
  for two digits are compared in `C71_years_that_agree`, `C71_nothing_but_the_century` and `C71_a_century_off`.
* C72: `Spec/RfcObsolete.lean` gives the address lists derived from the rules of the RFC with their obsolete alternatives (`restricted`, C64) their meaning, with the treatment of white space
  and control characters in quoted strings as a parameter; `Proofs/RfcObsDerive.lean` turns derivations into meanings and back (`C72_every_address_list`). That the parser prefers the derivation
  that is meant follows from two automata that read the skeleton of a text from left to right (`Proofs/Scan.lean`, `Proofs/ScanList.lean`): a strict alternative of the grammar, which
  comes first, is only possible if nothing is missing in the list or the group. `Proofs/ScanPicks.lean` builds the preferred derivation, `Proofs/RfcObsMeaning.lean` connects it with the meaning.
* C73: `Spec/RfcNames.lean` adds encoded words to the phrases of `Spec/RfcObsolete.lean`, from RFC 2047: what bytes an encoded word carries (`Carries`, C44), the text that its character
  set gives them (`Known`), and that neighbouring encoded words are one word (`words`). `Proofs/RfcNames.lean` shows that such phrases are the names of `Spec/Clear.lean` (`NamePieces`), by an induction from
  the right that keeps the run of encoded words at the front apart (`Runs`), so the result follows from the proof for lists with groups (C58).
  With missing items it follows from the automata of C72, which only need encoded words, wherever they may be found, to consist of characters of atoms (`AtomWords`).
  `C73_without_encoded_words`: in texts without `=?` this is the meaning of C72.
* C74: `Model/Effects.lean` has the `CharsetReader` as a function with a state (all variables that it may change, `CharsetReader` included, which is read anew for every word) which returns text, an error or panics; the decoder, the callbacks and
  both functions of the package pass the state along. `C74_calls`: for every input there are words, found in the text in this order outside of comments, quoted strings and domain literals (`Found`), and a function of their values such that for
  readers without effects the result is this function of what the words stand for, and for every reader the calls are those of `Answers` (`Spec/Reader.lean`): one for each word that asks, from
  left to right, up to a panic. Which words ask: `C74_asks`, `C74_known`, `C74_either`, `C74_determined`. `C74_rejected`, `C74_dates`: no calls. `C74_without_effects`, `C74_no_reader`: the link
  with the model without effects. Proof: induction on the callbacks, as in C51, for the values; for the places, induction on
  derivations with decidable conditions on the grammar (`G.plainOk`, `G.groupsOk`: where quotation marks and brackets may occur, and what may follow a group).
* C75: `Model/GoFormat.lean` is `time.Time.Format` (`absDate`, `absClock`, `absWeekday`, `appendInt`, the layouts as lists of chunks; Go 1.16, from memory; not part of /repo, and used only to say what is read back).
  Its division into cycles of 400, 100, 4 and 1 years is proved to be the inverse of the naive count of days (`Spec/Date.lean`, `Spec/Civil.lean`): the year by linear arithmetic, the 366 days of a year by the kernel (`Proofs/GoFormat.lean`). `C75_one_date_per_instant`,
  `C75_earlier_is_earlier`, `C75_every_instant_is_a_date` are about the calendar alone. The texts are then canonical dates (`C75_text_is_the_date`), which C30 and C35 read; `C75_read_and_written` is the round trip from any text that is accepted. `C75_hundred_hours` shows that the bound on offsets is needed: beyond it nothing is read back.
* C76: every report in a run (`Model/Recovery.lean`) records the state, the callers and the remaining tokens; `Model/Messages.lean` makes the text of it, with the names of the generated file and
  the functions of the runtime (from memory). An invariant of runs (`Proofs/RecLog.lean`, `runRule_sane`): remaining tokens in reports are a suffix of the input, and states and return states are among
  those in the code, from each of which, the kernel computes, a token can come next or the rule can end (`live_table`). So the set of expected tokens is never empty, which would be an index out of
  range in `toTokenString`. The shape of the text is in `Spec/Messages.lean`; that it is one line, and its length, follow from the shape alone.
* C77: a statement-by-statement walk of the generated functions along the network (`Proofs/RecFirst.lean`, checked for all 67 functions by `trk_table` in the kernel): as long as nothing
  has been reported, whatever the network can read from where it is, with the callers, can also follow what has been read (`Here`). The first report keeps this. Then, from every state
  with callers some text leads to the end (`Proofs/RecExpect.lean`: every state has a height and a transition to lower states, `height_table`), so that an expected token and a text
  after it can follow; C59 turns this into the grammar of `Spec/`, and C70 into results of the two functions. Not claimed: that the text read up to the report is the longest that can
  be right (a `no viable alternative` is reported where the decision begins), nor anything on reports after the first.
* C78: the model of recovery says which kind of exception is raised where (`InputMisMatch` by `RecoverInline` and `Sync`, `NoViableAlt` by `AdaptivePredict` and the default cases of
  switches). `Proofs/RecHonest.lean` shows, for all generated functions at once, that in every state in which `RecoverInline` or `Sync` reports anything the next token is not in
  `GetExpectedTokens` of that state and context. For `Sync` that is what it tests; for `RecoverInline`, `fair_table` decides for all `Match` calls and token sets of the 67 functions that
  the state in which they are executed has a single transition, for no more tokens than the code accepts. That no two names are equal is decided for all types (`C78_names_differ`). `C78_names_show` compares the names
  with a table written down independently (`nameOf`), for all characters.

## 5. Tests of the model and of the theorems

The tests of the repository (all 130 cases of parse_address_list_test.go, parse_date_time_test.go and, as far as they are used there, tests.xml) are
turned into Lean examples by `tools/gen_tests.py` and run on the model by the kernel (`Verif/Tests/Repo.lean`): the model gives what the authors expect.

`seeded/LOG.jsonl` has one line per seeded bug. Two checks are made for each: (1) the whole project is rebuilt with the edited
model, and the modules and theorems that no longer prove are recorded; (2) since a broken proof step need not mean a false
theorem, `seeded/probes.py` evaluates edited and real model on inputs whose result is fixed by named theorems, and records the
theorems whose conclusion is now false.
For C61 and C62 the Go files themselves are edited and translated again (`seeded/go_mutants.py`); the edited program is run in Lean and compared with the model.
