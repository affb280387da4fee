{"id": "C01", "title": "Empty input", "statement": "ParseAddressList(\"\") returns a non-nil empty slice and a nil error; ParseDateTime(\"\") returns the zero time.Time and a nil error, whatever CharsetReader and the clock are.", "quantifier": "every CharsetReader behaviour, every clock value, every prediction strategy of the ANTLR runtime", "why_tests_cant": "tests fix one CharsetReader and run at one point in time", "anchors": ["parser.go:ParseAddressList", "parser.go:ParseDateTime"]}
{"id": "C02", "title": "Neither entry point ever panics", "statement": "For every input string, ParseAddressList and ParseDateTime return normally: no stack underflow in the tree walker, no failed type assertion (including the final w.res.(T)), no out-of-range slicing of the zone offset text.", "quantifier": "all byte strings, all decoder behaviours, all clock values", "why_tests_cant": "the walker relies on an enter/exit discipline over every parse tree the grammar can produce; there are infinitely many trees", "anchors": ["parser.go:ParseAddressList", "parser.go:ParseDateTime", "walker.go:exit", "walker.go:parent", "offset.go:EnterOffset"]}
{"id": "C03", "title": "A call yields a result or an error, never both", "statement": "If the returned error is non-nil the slice is nil (ParseAddressList) or the zero time (ParseDateTime); and an error is reported exactly when the syntax phase rejected the input: no error is ever produced by the walking phase (bad month, bad zone, bad number).", "quantifier": "all byte strings, all decoders, all clocks", "why_tests_cant": "requires excluding every walking-time error branch on every reachable tree", "anchors": ["parser.go:ParseAddressList", "parser.go:ParseDateTime", "month.go:EnterMonth", "obs_zone.go:EnterObsZone", "day.go:EnterDay", "offset.go:EnterOffset"]}
{"id": "C04", "title": "ParseAddressList accepts exactly the documented address-list language", "statement": "ParseAddressList returns a nil error on a non-empty input iff the input, read as code points with the unlexable ones removed, belongs to the address-list language (RFC 5322 with obsolete forms and the documented relaxations: optional trailing period, port, ';' separators, optionally closed and quoted groups, '.'/'@' in display names).", "quantifier": "all byte strings", "why_tests_cant": "language equality over infinitely many strings", "anchors": ["parser.go:ParseAddressList", "RFC5322Parser.g4:addressList", "RFC5322Parser.g4:address", "RFC5322Parser.g4:group", "RFC5322Parser.g4:mailbox"]}
{"id": "C05", "title": "ParseDateTime accepts exactly the documented date-time language", "statement": "ParseDateTime returns a nil error on a non-empty input iff the input, with unlexable code points removed, belongs to the date-time language (RFC 5322 with obsolete forms, one-digit hours and unsigned offsets).", "quantifier": "all byte strings", "why_tests_cant": "language equality over infinitely many strings", "anchors": ["parser.go:ParseDateTime", "RFC5322Parser.g4:dateTime"]}
{"id": "C06", "title": "Every address returned is a reading of the input", "statement": "Whenever ParseAddressList succeeds, the returned list is one of the values that the address-list attribute grammar assigns to the input: names and addresses are assembled from the words, local parts and domains of one derivation of the whole input, left to right.", "quantifier": "all byte strings, all decoders", "why_tests_cant": "ranges over all inputs and all derivation trees", "anchors": ["parser.go:ParseAddressList", "walker.go", "mailbox.go", "name_addr.go", "address.go"]}
{"id": "C07", "title": "Ambiguity is resolved once and for all", "statement": "For an input with several readings the result is that of the derivation that prefers earlier alternatives and longer repetitions at every decision, and it does not depend on the internal state (prediction caches) of the ANTLR runtime: any two predictors that return the minimal viable alternative give identical results.", "quantifier": "all byte strings, all conforming predictors", "why_tests_cant": "ambiguity is a property of all derivations of an input; cache states are unbounded", "anchors": ["parser.go:ParseAddressList", "parser.go:ParseDateTime", "parser/rfc5322_parser.go:AdaptivePredict"]}
{"id": "C08", "title": "Code points above U+FFFF are silently dropped", "statement": "Inserting or deleting code points above U+FFFF anywhere in the input never changes the result of ParseAddressList or ParseDateTime (unless the input becomes empty): they are neither rejected nor present in the result.", "quantifier": "all code-point sequences and all insertions of supplementary-plane code points", "why_tests_cant": "infinitely many insertions; the lexer's error listener is never replaced so no error surfaces", "anchors": ["RFC5322Lexer.g4:UTF8NonAscii", "parser.go:ParseAddressList", "parser.go:ParseDateTime"]}
{"id": "C09", "title": "Ill-formed UTF-8 behaves as U+FFFD", "statement": "Each byte that is not part of a well-formed UTF-8 sequence is treated exactly like U+FFFD; and for input that is well-formed UTF-8 the code points parsed are exactly the code points encoded.", "quantifier": "all byte strings", "why_tests_cant": "all byte strings, all ill-formed sequences", "anchors": ["parser.go:ParseAddressList", "parser.go:ParseDateTime"]}
{"id": "C10", "title": "A bare addr-spec is returned verbatim", "statement": "For every dot-atom local part l and dot-atom domain d (a trailing period on either is allowed), ParseAddressList(l@d) returns exactly one address with empty Name and Address equal to l@d byte for byte: no case folding, no normalisation, no RFC2047 decoding.", "quantifier": "all dot-atoms l, d including non-ASCII", "why_tests_cant": "unbounded local parts and domains", "anchors": ["parser.go:ParseAddressList", "addr_spec.go", "mailbox.go:withAddrSpec", "RFC5322Parser.g4:addrSpec"]}
{"id": "C11", "title": "Atom display names are joined by single spaces", "statement": "For every non-empty sequence of atoms w1..wn none of which begins with \"=?\", separated by arbitrary non-empty runs of white space and comments, followed by <l@d>, the result is one address with Name = w1 w2 ... wn joined by one space and Address l@d. More generally a name made of atoms, quoted strings and encoded words is the sequence of their values joined by single spaces.", "quantifier": "all atom sequences, all CFWS runs, all dot-atom l, d", "why_tests_cant": "unbounded sequences", "anchors": ["parser.go:ParseAddressList", "display_name.go:withWord", "name_addr.go"]}
{"id": "C12", "title": "Quoted display names are unescaped exactly", "statement": "For every text t over quotable characters, writing t between double quotes with \" and \\ backslash-escaped, followed by <l@d>, gives Name equal to t with trailing white space removed (the code drops white space before the closing quote) and Address l@d.", "quantifier": "all texts t, all dot-atom l, d", "why_tests_cant": "unbounded texts and escapes", "anchors": ["parser.go:ParseAddressList", "quoted_string.go", "quoted_value.go", "quoted_pair.go", "quoted_content.go"]}
{"id": "C13", "title": "Lists keep every member, in order", "statement": "Joining any non-empty list of simple mailboxes (bare addr-specs whose dot-atoms do not contain \"=?\", and named or unnamed angle addresses) with ',' or ';' separators and optional white space and comments, ParseAddressList returns exactly one address per mailbox, in input order, each equal to what the mailbox gives on its own. (Without the \"=?\" restriction this is false: =?a?b?c@d and x?= <e@f> are accepted, but joined by a comma they are read as one address.)", "quantifier": "all lists of simple mailboxes, all separator choices", "why_tests_cant": "unbounded lists", "anchors": ["parser.go:ParseAddressList", "address_list.go:withAddress", "RFC5322Parser.g4:addressList"]}
{"id": "C14", "title": "Empty list items are ignored", "statement": "Call a text tame if its colons are hidden (there is none outside comments, quoted strings and domain literals, even if a double quote at the very beginning or directly behind a comma or semicolon is disregarded) and none of its encoded words (if any) contains one of , ; ( \" [. In a tame text, any number of leading, repeated and trailing commas (with white space or comments around them) in a comma-separated list of simple mailboxes changes nothing in the result; leading commas are ignored in front of every list of simple mailboxes and groups. Semicolons do not enjoy this: in a tame text a ';' after an accepted text is an error. (In other texts a trailing comma may change the reading: \"a:<=?x?y?\"<z?=@d> is one mailbox, followed by a comma it is a group.)", "quantifier": "all comma paddings of all simple lists", "why_tests_cant": "unbounded paddings", "anchors": ["parser.go:ParseAddressList", "RFC5322Parser.g4:obsAddrList"]}
{"id": "C15", "title": "Groups are flattened and their name is dropped", "statement": "name: m1, ..., mn; returns exactly the member mailboxes in order (none for an empty group); the group name never appears in the result; the terminating semicolon is optional at the end; groups and mailboxes can be mixed in lists. The name consists of atoms without \"=?\" and quoted strings, and the group does not start with a quotation mark (otherwise other readings take precedence).", "quantifier": "all such group names, all lists of simple mailboxes", "why_tests_cant": "unbounded groups", "anchors": ["parser.go:ParseAddressList", "group.go:withGroupList", "group_list.go", "mailbox_list.go", "RFC5322Parser.g4:group"]}
{"id": "C16", "title": "Comments and folding white space are invisible around addr-spec parts", "statement": "Inserting any CFWS (nested comments, quoted pairs, folds) before or after the local part, around the domain or after the angle bracket does not change the Name or Address returned (for addresses outside angle brackets: if the dot-atoms do not contain \"=?\").", "quantifier": "all CFWS strings of any nesting depth at each position, all dot-atom addresses", "why_tests_cant": "unbounded nesting", "anchors": ["parser.go:ParseAddressList", "RFC5322Parser.g4:cfws", "RFC5322Parser.g4:comment", "RFC5322Parser.g4:addrSpec"]}
{"id": "C17", "title": "Source routes are ignored", "statement": "For every obsolete route @d1,@d2,...,@dn: in front of an addr-spec l@d inside angle brackets, the Address returned is l@d alone.", "quantifier": "all routes, all dot-atom l, d", "why_tests_cant": "unbounded routes", "anchors": ["parser.go:ParseAddressList", "obs_angle_addr.go", "RFC5322Parser.g4:obsRoute"]}
{"id": "C18", "title": "Ports and domain literals are kept verbatim", "statement": "l@d:digits yields Address l@d:digits; l@[literal] yields Address l@[literal] including any inner white space, both with and without angle brackets (a bare l@[literal] if l does not contain \"=?\").", "quantifier": "all digit strings, all domain-literal contents", "why_tests_cant": "unbounded contents", "anchors": ["parser.go:ParseAddressList", "addr_spec.go:withPort", "domain_literal.go", "RFC5322Parser.g4:domainLiteral"]}
{"id": "C19", "title": "The null address", "statement": "name <> yields Name = name and Address = \"\"; a bare <> yields both empty.", "quantifier": "all atom names", "why_tests_cant": "unbounded names", "anchors": ["parser.go:ParseAddressList", "angle_addr.go", "RFC5322Parser.g4:angleAddr"]}
{"id": "C20", "title": "Encoded words are decoded and concatenated", "statement": "In a display name made of encoded words separated by optional white space, the Name is the concatenation, without separators, of the decoder's output for each word, an undecodable word contributing its own text unchanged.", "quantifier": "all encoded words, all decoder behaviours (CharsetReader)", "why_tests_cant": "unbounded words; CharsetReader is arbitrary user code", "anchors": ["parser.go:ParseAddressList", "encoded_word.go:EnterEncodedWord", "word.go:withEncodedWord", "parser.go:CharsetReader"]}
{"id": "C21", "title": "Plain words are not addresses", "statement": "An input that contains none of '@', '<' and ':' is always rejected.", "quantifier": "all byte strings without those characters", "why_tests_cant": "all strings", "anchors": ["parser.go:ParseAddressList", "RFC5322Parser.g4:address"]}
{"id": "C22", "title": "Raw line ends are rejected", "statement": "An input whose last lexable code point is CR or LF is rejected by both functions; and CR or LF can occur in an accepted input only as part of CRLF followed by white space, or right after a backslash.", "quantifier": "all byte strings", "why_tests_cant": "all strings", "anchors": ["parser.go:ParseAddressList", "parser.go:ParseDateTime", "RFC5322Parser.g4:fws", "RFC5322Parser.g4:obsQP"]}
{"id": "C23", "title": "Nothing is invented, duplicated or reordered", "statement": "If the input does not contain \"=?\", then the addresses returned, concatenated in order, form a subsequence of the input's code points; likewise the names up to inserted separator spaces.", "quantifier": "all byte strings without \"=?\"", "why_tests_cant": "all strings and derivations", "anchors": ["parser.go:ParseAddressList", "mailbox.go", "display_name.go", "address_list.go"]}
{"id": "C24", "title": "Shape of returned addresses", "statement": "Every Address returned is either empty (from <>) or of the form local@domain with non-empty domain.", "quantifier": "all accepted inputs, all decoders", "why_tests_cant": "all strings", "anchors": ["parser.go:ParseAddressList", "angle_addr.go:withAddrSpec", "mailbox.go:withAddrSpec"]}
{"id": "C25", "title": "Number of results", "statement": "The number of addresses returned is at most the number of '@' and '<' characters in the input, and an accepted input with no ':' returns at least one address.", "quantifier": "all byte strings", "why_tests_cant": "all strings", "anchors": ["parser.go:ParseAddressList", "address_list.go"]}
{"id": "C26", "title": "Comments never become names", "statement": "A bare addr-spec, whatever comments surround it, has an empty Name.", "quantifier": "all accepted inputs without '<'", "why_tests_cant": "all strings", "anchors": ["parser.go:ParseAddressList", "mailbox.go:withAddrSpec"]}
{"id": "C27", "title": "Quoted local parts lose their quotes", "statement": "For every quotable text t without trailing white space, \"escaped t\"@d yields Address t@d without quotes or escapes; hence the returned Address may contain several '@', spaces or commas, and parsing it again need not give it back.", "quantifier": "all texts t, all dot-atom d", "why_tests_cant": "unbounded texts", "anchors": ["parser.go:ParseAddressList", "local_part.go:withQuotedString"]}
{"id": "C28", "title": "Line breaks in results", "statement": "If the input contains neither CR nor LF and the decoder never produces them, no Name or Address contains CR or LF; but a folded quoted string or domain literal does put CRLF into Name or Address.", "quantifier": "all byte strings, all decoders", "why_tests_cant": "all strings", "anchors": ["parser.go:ParseAddressList", "fws.go", "quoted_value.go:withFws", "domain_literal.go"]}
{"id": "C29", "title": "ParseDateTime is a function of the calendar fields", "statement": "Whenever ParseDateTime succeeds, the instant and zone returned are those of the day, month, year, hour, minute, second and zone written in the input, and no other reading of the input exists: every derivation of an accepted input gives the same instant and zone.", "quantifier": "all accepted inputs, all derivations", "why_tests_cant": "unambiguity quantifies over all derivations of all strings", "anchors": ["parser.go:ParseDateTime", "date_time.go:ExitDateTime", "RFC5322Parser.g4:dateTime"]}
{"id": "C30", "title": "Canonical dates round-trip", "statement": "For every day, month, 4-digit year, hour, minute, second and signed offset, parsing the canonical text (with or without day name, seconds, zone) gives exactly time.Date of those fields in that zone.", "quantifier": "all field values 0..99 / 0..9999 and all offsets", "why_tests_cant": "10^17 combinations", "anchors": ["parser.go:ParseDateTime", "date_time.go", "day.go", "month.go", "year.go", "hour.go", "minute.go", "second.go", "offset.go"]}
{"id": "C31", "title": "The day of week is ignored", "statement": "Replacing the day name by any other, or removing it, never changes the result; in particular a wrong day name is not detected.", "quantifier": "all accepted inputs with a day name", "why_tests_cant": "all strings", "anchors": ["parser.go:ParseDateTime", "RFC5322Parser.g4:dayOfweek"]}
{"id": "C32", "title": "Defaults", "statement": "Omitted seconds mean 0 and an omitted zone means UTC.", "quantifier": "all accepted inputs without seconds / zone", "why_tests_cant": "all strings", "anchors": ["parser.go:ParseDateTime", "date_time.go:EnterDateTime"]}
{"id": "C33", "title": "Two-digit years", "statement": "A two-digit year yy means 1900+yy if yy is greater than the current year modulo 100 and 2000+yy otherwise; four-digit years do not depend on the clock.", "quantifier": "all accepted inputs, all clock values", "why_tests_cant": "depends on time.Now; tests run at one time", "anchors": ["parser.go:ParseDateTime", "year.go:EnterYear"]}
{"id": "C34", "title": "Numeric zones", "statement": "An offset [+-]hhmm gives a zone whose offset is sign*(hh*3600+mm*60) seconds and whose name is the offset text, '+' being supplied when the sign is missing; no hh or mm is rejected.", "quantifier": "all digits and signs", "why_tests_cant": "all values in all contexts", "anchors": ["parser.go:ParseDateTime", "offset.go:EnterOffset", "zone.go:withOffset"]}
{"id": "C35", "title": "Obsolete zones", "statement": "UT, UTC, GMT, EST, EDT, CST, CDT, MST, MDT, PST, PDT in any letter case give offsets 0,0,0,-5,-4,-6,-5,-7,-6,-8,-7 hours and the zone name as written; every other alphabetic zone is rejected.", "quantifier": "all letter cases, all inputs", "why_tests_cant": "all strings", "anchors": ["parser.go:ParseDateTime", "obs_zone.go:EnterObsZone", "RFC5322Parser.g4:obsZone"]}
{"id": "C36", "title": "Month names in any letter case", "statement": "The twelve three-letter month names are recognised in any mixture of cases, and the result does not depend on the case of month or day names.", "quantifier": "all case variants of all accepted inputs", "why_tests_cant": "all strings", "anchors": ["parser.go:ParseDateTime", "month.go:EnterMonth", "RFC5322Lexer.g4"]}
{"id": "C37", "title": "Out-of-range fields are normalised, not rejected", "statement": "Day 0..99, hour 0..99, minute 0..99 and second 0..99 are all accepted and carried over as time.Date does (e.g. 31 Feb, 25:61:61); the instant is that of the first of the month plus the written amounts.", "quantifier": "all field values", "why_tests_cant": "all values", "anchors": ["parser.go:ParseDateTime", "date_time.go:ExitDateTime"]}
{"id": "C38", "title": "Comments and white space in dates are invisible", "statement": "Two accepted date-times that differ only in comments and white space denote the same instant and zone.", "quantifier": "all pairs of accepted inputs", "why_tests_cant": "pairs of unbounded strings", "anchors": ["parser.go:ParseDateTime", "RFC5322Parser.g4:cfws"]}
{"id": "C39", "title": "Calendar arithmetic", "statement": "The Unix time returned equals 86400 times the number of days from 1970-01-01 counted by the Gregorian rules, plus the time of day, minus the zone offset.", "quantifier": "all field values", "why_tests_cant": "all years 0..9999", "anchors": ["parser.go:ParseDateTime", "date_time.go:ExitDateTime"]}
{"id": "C40", "title": "Calls are independent", "statement": "In any sequence of CharsetReader assignments and ParseAddressList/ParseDateTime calls, each call's result depends only on its own input, the CharsetReader assigned last, and the clock; ParseDateTime does not depend on CharsetReader and ParseAddressList does not depend on the clock.", "quantifier": "all histories of operations", "why_tests_cant": "unbounded histories", "anchors": ["parser.go:ParseAddressList", "parser.go:ParseDateTime", "parser.go:CharsetReader", "parser/rfc5322_parser.go:rfc5322parserParserStaticData"]}
{"id": "C41", "title": "One result per non-empty item", "statement": "If of an accepted input its colons are hidden (there is none outside comments, quoted strings and domain literals, even if a double quote at the very beginning or directly behind a comma or semicolon is disregarded) and none of its encoded words (if any) contains one of , ; ( \" [, the number of addresses returned is the number of non-empty items obtained by splitting the input at the commas and semicolons outside comments, quoted strings and domain literals (an item is empty if only white space and comments remain); and such an input with an empty item and a semicolon among the separators is rejected.", "quantifier": "all inputs whose colons (if any) are hidden and whose encoded words are free of list punctuation, all predictors, decoders and clocks", "why_tests_cant": "infinitely many nestings of comments, quoted strings and literals around separators; the grammar is ambiguous and separators inside quoted text must not be counted", "anchors": ["RFC5322Parser.g4:addressList", "RFC5322Parser.g4:obsAddrList", "parser.go:ParseAddressList", "address_list.go"]}
{"id": "C42", "title": "UTF-8 encoded words round-trip", "statement": "A display name written as any sequence of encoded words with charset utf-8, each in the Q or the B encoding with any mixture of cases, separated by any optional white space and comments, and cut at any byte position (even inside a multi-byte character), in front of <local@domain>, is returned as exactly the concatenation of the bytes the words carry, whatever CharsetReader is installed.", "quantifier": "all non-empty byte strings and their cuts, all encodings of the pieces (any choice of escaped characters, any case of the hex digits), all separators, all addresses of dot-atoms, all CharsetReaders", "why_tests_cant": "There are infinitely many names, cuts and encodings; a wrong boundary in the hex or base64 decoding or a missing join between words shows only for particular bytes and cuts.", "anchors": ["parser.go:CharsetReader", "encoded_word.go:EnterEncodedWord", "encoded_word.go:mime.WordDecoder"]}
{"id": "C43", "title": "Names are arbitrary byte strings (header injection hazard)", "statement": "For every non-empty byte string n - line breaks, NUL, ill-formed UTF-8 included - there is an input of printable ASCII characters without spaces for which ParseAddressList returns exactly one address with Name n and Address a@b, whatever CharsetReader is installed. A caller may therefore assume nothing about the bytes of a Name.", "quantifier": "all byte strings, all CharsetReaders", "why_tests_cant": "It is a surjectivity claim over all byte strings.", "anchors": ["encoded_word.go:EnterEncodedWord", "parser.go:ParseAddressList"]}
{"id": "C44", "title": "Charsets and undecodable encoded words", "statement": "An encoded word in a display name with charset iso-8859-1 is returned as the UTF-8 of its bytes read as code points; with us-ascii the bytes above 127 become U+FFFD; with any other charset the CharsetReader is called with the charset name in lower case and the decoded bytes, and its output is the name; without a CharsetReader, if it fails, if the encoding is neither Q nor B, or if the text is not Q-encoded, the word is returned as written and no error is reported.", "quantifier": "all charset names (any case), encodings, texts, CharsetReaders, separators and addresses of dot-atoms", "why_tests_cant": "The behaviour must hold for every charset name and every payload; the fallback path swallows errors silently.", "anchors": ["encoded_word.go:EnterEncodedWord", "parser.go:CharsetReader"]}
{"id": "C45", "title": "CharsetReader matters only for the encoded words in the input", "statement": "The result of ParseAddressList depends on the decoder only through what it says about encoded words that occur as substrings of the input. Without '=?' in the input the CharsetReader has no influence on the result; nor does it have any if all encoded words in the input name utf-8, iso-8859-1 or us-ascii.", "quantifier": "all inputs, all pairs of decoders / CharsetReaders", "why_tests_cant": "Non-interference relates two runs on every input for every pair of readers.", "anchors": ["parser.go:CharsetReader", "encoded_word.go:EnterEncodedWord", "parser.go:ParseAddressList"]}
{"id": "C46", "title": "mail.Address.String round trip", "statement": "For every address whose Address is local@domain, with local any non-empty text of printable characters (non-ASCII up to U+FFFF), spaces and tabs not ending in white space, and domain a dot-atom or a domain literal without '@', optionally with a port, and whose Name is any byte string, parsing the output of (*mail.Address).String returns exactly that address, except that spaces and tabs at the end of a printable ASCII name are lost; the same holds for several such addresses joined by \", \", and in particular for the addresses ParseAddressList itself returned. It is false for the null address, empty local parts and control characters.", "quantifier": "all names (byte strings), local parts, domains, lists of addresses, CharsetReaders", "why_tests_cant": "The formatter chooses between quoting, Q and B encoding and splits long words at 75 characters and character boundaries; the claim covers infinitely many names and lengths.", "anchors": ["parser.go:ParseAddressList", "encoded_word.go:EnterEncodedWord", "quoted_string.go", "mailbox.go"]}
{"id": "C47", "title": "List items are read independently of each other", "statement": "Take a text such that its colons are hidden (there is none outside comments, quoted strings and domain literals, even if a double quote at the very beginning or directly behind a comma or semicolon is disregarded) and every encoded word (if any) is free of , ; ( \" and [, and cut it at the commas and semicolons outside comments, quoted strings and domain literals. If ParseAddressList accepts the text, its result is the list of the results of calling it with each non-blank piece alone, in order; if it rejects one non-blank piece, it rejects the text. Conversely, if it accepts every non-blank piece, blank pieces are white space and comments, and there are no blank pieces or no semicolons, it accepts the text with those results. Hence two accepted lists joined by a separator give the concatenation of their results.", "quantifier": "all inputs whose colons (if any) are hidden and whose encoded words are free of list punctuation, all decoders", "why_tests_cant": "It relates the parse of a whole to the parses of all its parts, for every text; the grammar is ambiguous and parsed by unbounded lookahead, so an item could in principle change its neighbours' reading (and with a comma inside an encoded word it does).", "anchors": ["parser.go:ParseAddressList", "address_list.go", "parser/rfc5322_parser.go:AddressList"]}
{"id": "C48", "title": "Comments, quotes and domain literals are closed", "statement": "A text accepted by ParseAddressList, such that its colons are hidden (there is none outside comments, quoted strings and domain literals, even if a double quote at the very beginning or directly behind a comma or semicolon is disregarded) and every encoded word (if any) is free of , ; ( \" and [, ends outside comments, quoted strings and domain literals (read with a simple automaton that knows brackets, quotes and backslashes), and so does each of its items.", "quantifier": "all accepted inputs whose colons (if any) are hidden and whose encoded words are free of list punctuation", "why_tests_cant": "Balance must hold for arbitrarily deep nesting and every placement of escapes.", "anchors": ["parser.go:ParseAddressList", "parser/rfc5322_parser.go:Comment", "parser/rfc5322_parser.go:QuotedString", "parser/rfc5322_parser.go:DomainLiteral"]}
{"id": "C49", "title": "Obsolete local parts mean their words", "statement": "A local part written as words separated by periods, with comments and white space anywhere between them (RFC 5322 obs-local-part), makes ParseAddressList return the values of the words joined by periods: atoms as they are, quoted strings unquoted, and, inside angle brackets, encoded words decoded. Consequently any non-empty byte string whatever can begin the address returned for a printable ASCII input.", "quantifier": "all local parts of this form, all domains that are dot-atoms, all decoders; all byte strings", "why_tests_cant": "The number of words and the white space and comments between them are unbounded; the grammar is ambiguous here (dot-atom, quoted string, obsolete form) and which alternative the parser takes must be shown for each text.", "anchors": ["parser.go:ParseAddressList", "obs_local_part.go:EnterObsLocalPart", "local_part.go", "parser/rfc5322_parser.go:ObsLocalPart", "encoded_word.go:EnterEncodedWord"]}
{"id": "C50", "title": "Periods and at signs in display names", "statement": "A display name that begins with a word and goes on with words and bare '.' and '@', with comments and white space anywhere between, in front of an address in angle brackets, makes ParseAddressList return one address whose name consists of the values of the words, separated by single spaces except next to '.' and '@', which are copied without spaces around them. So 'John Q. Public <x@y>' has the name 'John Q.Public'. A group name may be written in the same way (without '@') and does not affect the result.", "quantifier": "all names of this form (any number of words and punctuation marks, any CFWS between them), all addresses in angle brackets, all decoders", "why_tests_cant": "Names of any length are ambiguous between the strict and the obsolete phrase, addr-spec and group name; that the parser's unbounded lookahead settles on the reading given has to be shown for each of them.", "anchors": ["parser.go:ParseAddressList", "display_name.go:EnterDisplayName", "parser/rfc5322_parser.go:DisplayName", "parser/rfc5322_parser.go:NameAddr"]}
{"id": "C51", "title": "Concurrent calls do not interfere", "statement": "Let any number of calls of ParseAddressList and ParseDateTime run at the same time, interleaved in any way with each other, with assignments to CharsetReader and with the passing of time. (a) Every call that keeps being scheduled returns. (b) ParseAddressList returns what it returns alone, provided CharsetReader behaves the same whenever the call looks at it; in general each encoded word is decoded with a reader that was in effect at some moment of the call, in order, and nothing else matters; acceptance, error and number of addresses never depend on the schedule, and nothing panics. (c) ParseDateTime returns what it returns alone at some moment between its beginning and its end (with empty input, at once). (d) ParseAddressList is not atomic with respect to CharsetReader: a change during the call can give a result that neither reader gives.", "quantifier": "all executions: all sets of calls and inputs, all interleavings of their steps, all assignments to CharsetReader and all changes of the year in between, all states the shared prediction caches may be left in", "why_tests_cant": "The number of interleavings is unbounded, and races on shared state do not show up reliably in tests.", "anchors": ["parser.go:ParseAddressList", "parser.go:ParseDateTime", "parser.go:CharsetReader", "encoded_word.go:EnterEncodedWord", "year.go:EnterYear", "parser/rfc5322_parser.go:decisionToDFA"]}
{"id": "C52", "title": "The work of a call is linear", "statement": "A call of ParseAddressList or ParseDateTime with an input of n bytes makes at most 546*(n+1) steps until it returns, where a step is one decision of the parser, one token, entering or leaving one rule function, or one callback of the tree walker. There is no input on which the parser backtracks or loops. (The cost inside one decision, which the ANTLR runtime makes by simulating all alternatives with lookahead, is not counted.)", "quantifier": "all inputs, all interleavings with other calls and assignments to CharsetReader, all states of the shared prediction caches, all moments of the execution", "why_tests_cant": "A superlinear case may need an input of a shape nobody thought of; the bound is for every input of every length and every schedule.", "anchors": ["parser.go:ParseAddressList", "parser.go:ParseDateTime", "parser/rfc5322_parser.go:AddressList", "parser/rfc5322_parser.go:Comment"]}
{"id": "C53", "title": "Only nested comments make the recursion deep", "statement": "At every moment of a call, the number of rule functions of the parser that have been entered and not left, and likewise the number of tree nodes the walker is inside of, is at most 28 + 6*p, where p is the number of '(' bytes in the input. So an input without '(' needs a stack of constant size however long it is: lists, groups, quoted strings, display names and domains of any length do not recurse.", "quantifier": "all inputs, all interleavings, all moments of the execution", "why_tests_cant": "The depth for every list length, name length and nesting has to be bounded; tests sample a few sizes.", "anchors": ["parser.go:ParseAddressList", "parser.go:ParseDateTime", "parser/rfc5322_parser.go:Comment", "parser/rfc5322_parser.go:Ccontent", "parser/rfc5322_parser.go:AddressList"]}
{"id": "C54", "title": "The result is not much bigger than the input", "statement": "If no decoded word is more than m times as long as the encoded word (m at least 1), the names and addresses returned by ParseAddressList have together at most (m+1) times as many bytes as the input, for valid UTF-8, and 3(m+1) times for arbitrary bytes. With Go's decoder m is 3, or the greatest expansion of the CharsetReader if that is more. The number of addresses is at most (n+1)/3 for n bytes. So a small header cannot blow up into a huge result.", "quantifier": "all inputs, all decoders and CharsetReaders with the stated expansion, all list and name lengths", "why_tests_cant": "The bound has to hold for every input; amplification would come from inputs nobody tests.", "anchors": ["parser.go:ParseAddressList", "display_name.go:EnterDisplayName", "encoded_word.go:EnterEncodedWord", "quoted_string.go:EnterQuotedValue"]}
{"id": "C55", "title": "Lists of mailboxes: exactly what is accepted, and as what", "statement": "Take an input without a visible colon (see C41), without \"=?\" and without lines of white space only. ParseAddressList accepts it if and only if it is a list of mailboxes in the following sense, and returns their names and addresses, in order: mailboxes are separated by commas or semicolons, or by commas only with empty items anywhere; a mailbox is an addr-spec, or an angle address with an optional name in front; the name is made of atoms, quoted strings, '.' and '@', begins with a word, and its value is the words joined by single spaces with nothing put in front of '.' and '@' or behind them; comments and white space may stand around every part. All other such inputs give an error. In particular each such list has one value only.", "quantifier": "all inputs without visible colons, encoded words and blank lines; all predictors, decoders and clocks", "why_tests_cant": "Acceptance and result have to be settled for every text; tests sample a few.", "anchors": ["parser.go:ParseAddressList", "address_list.go:withAddress", "mailbox.go:withNameAddr", "mailbox.go:withAddrSpec", "display_name.go", "RFC5322Parser.g4:addressList", "RFC5322Parser.g4:mailbox"]}
{"id": "C56", "title": "Any comment or white space is as good as one space", "statement": "Take an accepted input as in C55 (no visible colon, no \"=?\", no blank line). Replace every maximal run of comments and white space outside quoted strings and domain literals by a single space. If the new text has no visible colon either, it is accepted with the same result. Hence two accepted inputs that become equal in this way give the same addresses: the content, length, nesting and folding of comments never leak into names or addresses.", "quantifier": "all accepted inputs of the kind, all ways of writing comments and white space; all predictors, decoders and clocks", "why_tests_cant": "Pairs of unboundedly many texts; comments nest to any depth.", "anchors": ["parser.go:ParseAddressList", "RFC5322Parser.g4:cfws", "RFC5322Parser.g4:comment", "display_name.go", "addr_spec.go"]}
{"id": "C57", "title": "Comments and white space around the whole input", "statement": "Putting comments and white space in front of an accepted input or behind it does not change the result, if neither text has a visible colon (see C41) and the new one has no \"=?\" and no blank line. (With colons it does: a@b:25 is accepted, with a space behind it is not.)", "quantifier": "all accepted inputs of the kind, all comments and white space", "why_tests_cant": "Unboundedly many texts and nestings.", "anchors": ["parser.go:ParseAddressList", "RFC5322Parser.g4:cfws", "RFC5322Parser.g4:addressList"]}
{"id": "C58", "title": "Group names with quoted strings, commas among group members", "statement": "A group whose name begins with a quoted string is read like any other group, alone or in a list, provided no colon is visible when its first quotation mark is disregarded (the grammar lets a quotation mark precede a group). Its members may be preceded by commas, and then also have empty items among them; a group with nothing but commas, white space and comments is empty. \"name:\" in quotation marks with an optional semicolon behind it is an empty group: the result is nil without an error.", "quantifier": "all group names made of words and periods, all member lists, all mixtures of mailboxes and groups, all placements of white space and comments, all predictors", "why_tests_cant": "Unboundedly many names, members and lists.", "anchors": ["parser.go:ParseAddressList", "RFC5322Parser.g4:group", "RFC5322Parser.g4:groupList", "RFC5322Parser.g4:obsGroupList", "RFC5322Parser.g4:obsMboxList", "group.go", "group_list.go"]}
{"id": "C59", "title": "The serialized networks decide", "statement": "The integers of the serialized networks in the generated code are read completely. Longest-match lexing with the lexer network turns every input into one token per character up to U+FFFF, with the type given by the network, and skips all other characters. ParseAddressList and ParseDateTime reject a non-empty input exactly if the parser network has no path for its tokens through the rules addressList and dateTime; otherwise there is exactly one path that always takes the first transition from which the end can still be reached, and the result comes from the parse tree of that path.", "quantifier": "all inputs, all predictors, all behaviours of CharsetReader", "why_tests_cant": "The networks have more than a thousand states and infinitely many paths; that no path is missing or superfluous concerns every token sequence.", "anchors": ["parser/rfc5322_parser.go:rfc5322parserParserInit", "parser/rfc5322_lexer.go:rfc5322lexerLexerInit", "parser.go:ParseAddressList", "parser.go:ParseDateTime"]}
{"id": "C60", "title": "The generated functions", "statement": "The functions of the generated parser, executed statement by statement with any runtime whose AdaptivePredict returns the smallest alternative with which the network can reach the end of the input (and anything in range or a panic if there is none) and whose Sync raises no objection where the end can be reached: they terminate on all tokens, with calls nested less than 12*(tokens+2) deep and fewer rounds than that in every loop; trees returned without an error are trees of paths through the serialized network; and ParseAddressList and ParseDateTime with these functions return exactly what they return in the model all other properties are about, errors included.", "quantifier": "all inputs, all conforming runtimes (whatever they answer where the input cannot be completed), all rules, all call stacks, all behaviours of CharsetReader", "why_tests_cant": "The 67 functions choose by one token of lookahead, by bit masks and by predictions with the whole rest of the input; that no choice ever disagrees with the network concerns every token sequence and call stack.", "anchors": ["parser/rfc5322_parser.go:AddressList", "parser/rfc5322_parser.go:DateTime", "parser/rfc5322_parser.go:Cfws", "parser.go:ParseAddressList", "parser.go:ParseDateTime"]}
{"id": "C61", "title": "The hand-written source itself", "statement": "The Go functions of the hand-written package, executed statement by statement on a heap with pointers, in-place append and interface values, together with the functions of the generated parser: ParseAddressList and ParseDateTime always return, with calls nested at most three deep, never panic, and return exactly the slice, time and error that the other properties are about. A non-empty text of the address-list language gives its meaning and the nil error; any other text the nil slice (the zero time) and an error whose text is 'error parsing rfc5322 input: ' followed by the last message of the parser. The outcome depends on nothing but the input, CharsetReader, the current year and (in the error text) that message: not on the memory found, on the growth of slices, or on cached predictions.", "quantifier": "all inputs, all heaps at the time of the call, all growth policies of append, all conforming runtimes, all error messages and recovered trees, all behaviours of CharsetReader", "why_tests_cant": "Aliased slices, stale stack entries and missing listener methods show up only for particular trees and capacities; the claim is about every tree and every heap.", "anchors": ["parser.go:ParseAddressList", "parser.go:ParseDateTime", "walker.go:walker", "walker.go:enter", "walker.go:exit", "walker.go:SyntaxError", "address_list.go:ExitAddressList", "group.go:withGroupList", "mailbox.go:withNameAddr"]}
{"id": "C62", "title": "Results belong to the caller", "statement": "A call of ParseAddressList or ParseDateTime changes no object that existed before it. The returned slice and the addresses in it are new objects, pairwise distinct. They stay as they are through any later calls, allocations and writes of the program to other objects; the results of two calls share nothing; and overwriting the results of earlier calls does not influence later ones.", "quantifier": "all inputs, all heaps, all later histories of calls, allocations and writes, all growth policies of append, all conforming runtimes", "why_tests_cant": "Sharing between results is invisible until somebody writes to one of them; a test sees only the histories it contains.", "anchors": ["parser.go:ParseAddressList", "address_list.go:ExitAddressList", "address.go:withMailbox", "group.go:withGroupList", "mailbox_list.go:withMailbox"]}
{"id": "C63", "title": "Calls at the same time share no memory", "statement": "When any number of goroutines call ParseAddressList and ParseDateTime at the same time, as written, on one heap, with any interleaving of their single memory accesses and with the rest of the program making objects and overwriting its own: a call reads and writes only objects it has made itself, so there is no data race between calls and no access changes an object of another call or of the rest of the program. A call never panics, never waits, makes only finitely many accesses, and can be finished at any time by its own accesses alone. When it is at its end it delivers exactly the slice, time and error it would have delivered alone; these belong to the caller and stay as they are whatever other calls do.", "quantifier": "all interleavings of the accesses of any number of calls with any inputs, all heaps at the start, all allocations and writes by the rest of the program, all growth policies of append (which may look at the whole heap), all conforming runtimes, one CharsetReader and year per call", "why_tests_cant": "The race detector and stress tests see only the schedules that happened; the claim is about all of them.", "anchors": ["parser.go:ParseAddressList", "parser.go:ParseDateTime", "walker.go:walker", "walker.go:enter", "walker.go:exit", "walker.go:SyntaxError", "address_list.go:ExitAddressList"]}
{"id": "C64", "title": "The accepted language is RFC 5322 with exactly these changes", "statement": "A non-empty input is accepted by ParseAddressList (ParseDateTime) if and only if its text, less the characters above U+FFFF, is an address-list (date-time) of the ABNF grammar of RFC 5322, obsolete syntax included, with exactly these restrictions: folding white space has at most one line break; no white space or comments around the periods of a domain; no control characters or quoted pairs in domain literals; years of exactly four or two digits; no military zones; and exactly these extensions: characters U+0080 to U+FFFF wherever the RFC allows printable text; a period at the end of a dot-atom; encoded words as words (with a backslash allowed in tokens); at signs in names; empty angle brackets; groups without the semicolon or with quotation marks around them; semicolons between addresses; a port after a domain; one digit for the hour; a missing zone, a zone without sign, and UTC. In particular every address list that RFC 5322 allows to generate, and every date with a year of four digits, is accepted. The restrictions only take texts away, the extensions only add some, and each restriction rejects a text the RFC allows. No change is superfluous: with any one of them undone, the rules would miss a text that is accepted, or derive one that is rejected; and each of the extensions named accepts a text that the RFC does not derive.", "quantifier": "all inputs; all derivations in the ABNF of RFC 5322, of any length and depth", "why_tests_cant": "Conformance to a recursive grammar is a claim about infinitely many texts in both directions; tests show samples of accepted and rejected ones.", "anchors": ["RFC5322Parser.g4", "RFC5322Lexer.g4", "parser.go:ParseAddressList", "parser.go:ParseDateTime"]}
{"id": "C65", "title": "The grammar files are the accepted language", "statement": "RFC5322Lexer.g4 and RFC5322Parser.g4, read as text, say what the package does: every input text has exactly one sequence of tokens (longest match, first rule, characters without a rule skipped); a non-empty input is accepted by ParseAddressList (ParseDateTime) if and only if the rule addressList (dateTime) of the files derives its tokens followed by the end of input; and the result is that of the one derivation which, from left to right, takes the first alternative (for options and repetitions: once more rather than not) with which the whole input can still be derived.", "quantifier": "all inputs and all derivations from the rules in the files", "why_tests_cant": "The generated code is a table and 15000 lines made from the files; that it accepts the same texts and prefers the same readings is a claim about infinitely many inputs and derivations.", "anchors": ["RFC5322Lexer.g4", "RFC5322Parser.g4", "parser.go:ParseAddressList", "parser.go:ParseDateTime"]}
{"id": "C66", "title": "Texts mean what RFC 5322 says", "statement": "For every address list that RFC 5322 allows to generate (no obsolete syntax) and that contains neither '=?' nor blank lines, ParseAddressList returns, in order, the mailboxes that the RFC says it denotes: display name without quotation, comments and folding, addr-spec without comments and quotation, groups replaced by their members. The exceptions are stated: line breaks inside quoted strings are kept, white space before the closing quotation mark is dropped, and a group whose name begins with a quotation mark must not show a colon if that mark is overlooked. For every date that RFC 5322 allows to generate (years of four digits), ParseDateTime returns the instant and the offset that the RFC gives it. Every text the current grammar of the RFC derives has such a meaning.", "quantifier": "all texts derived by the non-obsolete grammar of RFC 5322, all derivations", "why_tests_cant": "The RFC grammar has infinitely many texts, with nested comments and folding anywhere; tests compare a few of them.", "anchors": ["parser.go:ParseAddressList", "parser.go:ParseDateTime", "address_list.go", "display_name.go", "group.go", "mailbox.go", "date_time.go"]}
{"id": "C67", "title": "The prediction algorithm of the runtime never changes a result", "statement": "At every decision of the generated parser, whatever tokens remain and however the function was reached, the ALL(*) algorithm of the ANTLR runtime (limited look-ahead, first without and if necessary with the callers, conflicting alternatives resolved in favour of the smallest, merged stacks, results kept in tables shared by all calls of the process) predicts the smallest alternative by which the input can still be read to its end, if there is one; it panics only if there is none, always comes to an end, and never predicts a number that is not an alternative; synchronisation reports no error as long as the input can be read to its end. Hence ParseAddressList and ParseDateTime, run with this algorithm, return what all the other properties say.", "quantifier": "all decisions, call stacks, remaining tokens, representations of stacks by graphs, contents of the shared tables after any history of predictions and during the prediction, all inputs", "why_tests_cant": "A prediction depends on unboundedly many tokens and callers and, through the tables, on everything parsed before in the process; a shortcut that is wrong in a rare context would show only there.", "anchors": ["parser/rfc5322_parser.go: AdaptivePredict and Sync calls, staticData.decisionToDFA", "go.mod: github.com/antlr/antlr4/runtime/Go/antlr"]}
{"id": "C68", "title": "Error recovery comes to an end and never hides an error", "statement": "When a text is not accepted, the generated functions do not stop at the first error: panics are recovered in every function, the error strategy of the runtime deletes a token, makes one up or skips tokens, and the callers go on. Whatever the text is, and at whatever point errors occur, all functions come to an end after a number of nested calls and loop rounds that is linear in the length of the input, no panic of the parser gets out, the listener's SyntaxError is called at least once if the text cannot be read by the grammar, never if it can, and at most once more than there are tokens; hence ParseAddressList and ParseDateTime, run with recovery, return what all the other properties say, and an error never turns into a result.", "quantifier": "all inputs, all functions of the generated parser, all call stacks, all states of the error strategy, all representations of stacks used by the prediction", "why_tests_cant": "Recovery depends on where in the text and in which of the nested calls something is wrong, and on what has been wrong before at the same position; an endless loop or a swallowed error would occur for particular malformed texts only, and there are infinitely many.", "anchors": ["parser/rfc5322_parser.go: defer func in every rule function, GetErrorHandler().Recover, RecoverInline, Sync, ReportMatch", "parser.go: ParseAddressList, ParseDateTime (w.err after parsing)", "walker.go: SyntaxError", "go.mod: github.com/antlr/antlr4/runtime/Go/antlr"]}
{"id": "C69", "title": "The lexer of the runtime finds exactly the tokens of the grammar", "statement": "Run on any input, the lexer (the network of the generated file, interpreted by the runtime: sets of configurations followed character by character, the last set containing the end of a rule decides, and where there has been none a character is skipped with a message) comes to an end after at most one round per character, with recursion at most three deep. Its tokens are the longest matches of the first rules in the grammar file, each a single character; a character no rule matches is left out and nothing else is. What the tables shared by all lexers of the process contain, after any calls before and during this one, makes no difference.", "quantifier": "all texts, all contents of the shared tables that can come about, at every step", "why_tests_cant": "There are infinitely many texts and over a million code points, and the tables depend on all calls made before and at the same time.", "anchors": ["parser/rfc5322_lexer.go: NewRFC5322Lexer, rfc5322lexerLexerInit, lexerStaticData.decisionToDFA", "parser.go: ParseAddressList, ParseDateTime (NewRFC5322Lexer, NewCommonTokenStream)", "go.mod: github.com/antlr/antlr4/runtime/Go/antlr"]}
{"id": "C70", "title": "The whole stack, from bytes to heap", "statement": "Put together as they run in a process - the hand-written functions on a heap, the generated functions with recovery from errors, the prediction and the lexer of the runtime with the tables they share, on the networks serialized in the generated files - ParseAddressList and ParseDateTime always return: the addresses or the date that the text means according to the language definition and a nil error, or a nil slice (the zero time) and the last error that was reported, which happens for exactly the texts without a meaning. There are at most as many reports as tokens, plus one. What the shared tables contain, what is on the heap, and how slices grow makes no difference, neither to the result nor to which error is returned.", "quantifier": "all inputs, all states of the process: contents of the shared tables that can come about, heaps, growth of slices, decoders, years", "why_tests_cant": "A test runs from one state of the process on one input; the claim is about all of both, and about the layers fitting together for all of them.", "anchors": ["parser.go: ParseAddressList, ParseDateTime", "walker.go: walker, SyntaxError", "parser/rfc5322_parser.go", "parser/rfc5322_lexer.go", "go.mod: github.com/antlr/antlr4/runtime/Go/antlr"]}
{"id": "C71", "title": "Dates in the obsolete syntax of RFC 5322 mean what the RFC says", "statement": "ParseDateTime reads every date-time of RFC 5322 written with or without its obsolete syntax - comments and folding white space between the pieces, names of zones, years of two digits - apart from the forms that the package does not read (C64), as the moment the date denotes, in the zone written there. Only for years of two digits does it deviate: where the RFC adds 2000 up to 49 and 1900 from 50 on, the package takes the last such year that is not in the future; all other fields are as the RFC says, and the year is a whole century off exactly when the two rules differ. The meaning of a text is unique.", "quantifier": "all texts derivable from the RFC's date-time rule with its obsolete alternatives, less those of C64's list; all current years; all states of the prediction", "why_tests_cant": "Obsolete dates are an infinite language (comments nest, white space folds), and the century rule depends on the clock.", "anchors": ["parser.go: ParseDateTime", "date_time.go", "year.go", "zone.go", "obs_zone.go", "RFC5322Parser.g4: dateTime, year, zone, obsZone"]}
{"id": "C72", "title": "Addresses in the obsolete syntax of RFC 5322 mean what the RFC says", "statement": "ParseAddressList reads every address list of RFC 5322 written with or without its obsolete syntax - periods in display names, comments and white space around the periods of a local part, routes in angle brackets, missing items in lists and groups - apart from the forms that the package does not read (C64), as the mailboxes it denotes and the members of its groups, in their order, with the names and addresses that the RFC gives them: routes and missing items count for nothing. This holds for texts without the beginning of an encoded word or blank lines, in which quotation marks cannot be taken for those around a whole group. In quoted strings the package leaves line breaks in, and leaves out white space at the end and control characters behind backslashes.", "quantifier": "all texts derivable from the RFC's address-list rule with its obsolete alternatives, less those of C64's list, that meet the three conditions; all character set readers; all states of the prediction", "why_tests_cant": "Obsolete address lists are an infinite, ambiguous language; that the derivation that the parser prefers is the one the RFC means holds for all of them only by proof.", "anchors": ["parser.go: ParseAddressList", "address_list.go", "group.go", "group_list.go", "mailbox_list.go", "obs_mbox_list.go", "obs_angle_addr.go", "obs_local_part.go", "angle_addr.go", "display_name.go", "RFC5322Parser.g4: addressList, obsAddrList, obsMboxList, obsGroupList, obsAngleAddr, obsRoute, obsLocalPart, obsPhrase"]}
{"id": "C73", "title": "Names with encoded words mean what RFC 2047 says", "statement": "ParseAddressList decodes the encoded words in display names as RFC 2047 says: in an address list whose display names and group names consist of words, quoted strings, periods and encoded words separated by white space or comments, each encoded word stands for the text that its character set gives to the bytes encoded in it by Q or B, white space and comments between two encoded words count for nothing, and otherwise words are joined by one space; the mailboxes and members of groups are returned in their order, and missing items count for nothing. The character sets are UTF-8, ISO-8859-1, US-ASCII and those that the installed CharsetReader converts.", "quantifier": "all address lists of RFC 5322 (obsolete syntax included, apart from the forms that the package does not read, C64) with encoded words in phrases as RFC 2047 section 5 (3) allows them, without blank lines, and in which quotation marks cannot be taken for those around a whole group; if items are missing in lists or groups, what looks like an encoded word must consist of characters of atoms everywhere in the text; all character set readers; all states of the prediction", "why_tests_cant": "Encoded words compose with words, comments, folds, groups and each other without bound; that decoding, joining and separation never interfere holds for all of these only by proof.", "anchors": ["parser.go: ParseAddressList, SetCharsetReader", "encoded_word.go", "atom.go", "word.go", "display_name.go", "group.go", "RFC5322Parser.g4: encodedWord, atom, word, displayName, group"]}
{"id": "C74", "title": "When the CharsetReader is called, and with what", "statement": "While ParseAddressList runs, the installed CharsetReader is called exactly for certain encoded words of the input, those on whose decoded text the walk over the parse tree comes, if their character set is not UTF-8, ISO-8859-1 or US-ASCII and their text can be decoded: once for each, in the order of the text, with the name of the character set in lower case and the bytes that the word carries. It is not called if the input is rejected, nor for words in comments, quoted strings or domain literals (quotation marks around a whole group do not count as those of a quoted string), and ParseDateTime never calls it. If the reader panics, the call of ParseAddressList ends with that panic and the reader is not called again; otherwise there is no panic, and the result is that for a reader without side effects which gives the same answers.", "quantifier": "all inputs, all CharsetReaders: any function with any state, which may return text, an error, or panic, differently from call to call; all states at the start", "why_tests_cant": "the reader may depend on all of its earlier calls, and the words may be anywhere in arbitrary input; a test tries a few readers on a few lists", "anchors": ["parser.go: CharsetReader, ParseAddressList, ParseDateTime", "encoded_word.go: EnterEncodedWord"]}
{"id": "C75", "title": "The dates that Go writes are read back", "statement": "The date that time.Time.Format writes with the layout time.RFC1123Z, or the same with the day of the month in one digit, is read back by ParseDateTime as the same instant with the same offset (the zone is named by the text of its offset), for every instant of the years 0 to 9999 and every zone of less than 100 hours in whole minutes. An offset with seconds is cut to whole minutes, as Format shows it, so that the clock stays the same and the instant moves by those seconds. With time.RFC1123, if the zone has one of the names the package knows and the offset of that name, exactly the same time comes back; a zone with any other name of letters (CET, say) makes the text a syntax error. With time.RFC822Z seconds are lost, and the year has two digits: of the years that two digits can mean now, those up to the current one come back, and those after it are read a hundred years too early. Every such instant is, in every zone, exactly one date of the calendar, and the order of the instants is that of the dates. In a zone of 100 hours or more (which ParseDateTime can return: +9999 is taken as 100 hours and 39 minutes) Format writes three or more digits for the hours, and the text is always a syntax error. So whatever form a date was read in, in a zone of less than 100 hours, writing it with RFC1123Z and reading it again gives the same instant and offset, and from then on the text stays the same.", "quantifier": "all instants of the years 0 to 9999, all zones (names, offsets), all current years from 2000 to 2099 for two-digit years", "why_tests_cant": "there are some 3*10^11 instants and any number of zones; a test tries a few dates around leap days and the ends of months", "anchors": ["parser.go: ParseDateTime", "date_time.go: ExitDateTime", "year.go: EnterYear", "offset.go: EnterOffset", "obs_zone.go: EnterObsZone"]}
{"id": "C76", "title": "Error messages are one line about a piece of the input", "statement": "The text of every syntax error that ParseAddressList and ParseDateTime return is 'error parsing rfc5322 input: ' and then one of: 'extraneous input Q expecting N', 'missing N at Q', 'mismatched input Q expecting N', 'no viable alternative at input Q'. Q is a non-empty piece of the input (or <EOF>, for its end) in quotes, with tabs and line breaks written as \\t, \\n and \\r; N is the name of a token of the grammar, or two or more names, none twice, in braces. N is never empty: at every point where an error is reported some token is expected, so that making the message does not panic. Hence the text is one line: none of its bytes is a tab, a line feed or a carriage return, whatever the input contains, and it has at most three times as many bytes as the input, and 413. (Other control characters of the input are quoted as they are.)", "quantifier": "all inputs, all states of the process (shared tables, heap), all reports made while recovering from errors", "why_tests_cant": "which state an error is reported in depends on the whole input and on what recovery has skipped before; tests see the messages of a few broken texts", "anchors": ["walker.go: SyntaxError", "parser.go: ParseAddressList, ParseDateTime", "parser/rfc5322_parser.go: literalNames, symbolicNames"]}
{"id": "C77", "title": "What the first error says was expected could have come", "statement": "If ParseAddressList or ParseDateTime returns an error for a non-empty input, the first syntax error that was found is about a place up to which the input can still be right: the characters of the input are a text u followed by the rest at which the error is reported, something is expected there, and for everything that is said to be expected, a character c or the end of the input, there is an input that begins with u and c (or is u itself) for which the same function returns no error. (The text returned is that of the last syntax error found; if only one is found, that is the first.)", "quantifier": "all inputs for which an error is returned, all states of the process (shared tables, heap), every token expected at the first error", "why_tests_cant": "it says of every wrong input and every token named in the message that a completion exists; tests can look at the messages of a few wrong inputs, and cannot tell which other tokens are named without reason", "anchors": ["parser.go: ParseAddressList, ParseDateTime", "walker.go: SyntaxError", "parser/rfc5322_parser.go: all rule functions, serializedATN"]}
{"id": "C78", "title": "Error messages do not contradict themselves", "statement": "Whenever ParseAddressList or ParseDateTime returns a syntax error for a non-empty input, the message does not contradict itself: if it says that some input is extraneous, mismatched or that something is missing at it, and which tokens are expected, then the listed names are names of token types, each listed once, and the token that comes next in the input, whose text the message quotes, is not of one of the types listed. (A `no viable alternative` lists nothing.) The same holds of every message that is reported on the way. No two token types have the same name, so that what is listed can be told from the message: every character of the basic plane has exactly one name, the letter in upper case, Digit, UTF8NonAscii, U_01_08, U_0E_1F, or the character in quotes.", "quantifier": "all inputs, all states of the process (shared tables, heap), all errors reported during a parse", "why_tests_cant": "it says of every wrong input, and of each of the errors found after recovering from earlier ones, that a list computed from one part of the runtime excludes the token found by another; tests see the messages of a few inputs", "anchors": ["parser.go: ParseAddressList, ParseDateTime", "walker.go: SyntaxError", "parser/rfc5322_parser.go: all rule functions, serializedATN, LiteralNames, SymbolicNames"]}
