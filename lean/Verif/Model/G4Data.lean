import Verif.Model.GoStd

/-!
# The grammar files

Copied by tools/gen_g4.py, line by line.
-/

namespace Rfc5322.G4

/-- /repo/RFC5322Lexer.g4:1-60. -/
def lexerLines0 : List (List Char) := [
  c!"lexer grammar RFC5322Lexer;",
  c!"",
  c!"U_00:             '\\u0000';",
  c!"U_01_08:          '\\u0001'..'\\u0008';",
  c!"TAB:              '\\t';     // \\u0009",
  c!"LF:               '\\n';     // \\u000A",
  c!"U_0B:             '\\u000B';",
  c!"U_0C:             '\\u000C';",
  c!"CR:               '\\r';     // \\u000D",
  c!"U_0E_1F:          '\\u000E'..'\\u001F';",
  c!"",
  c!"// Printable (0x20-0x7E)",
  c!"SP:               ' ';      // \\u0020",
  c!"Exclamation:      '!';      // \\u0021",
  c!"DQuote:           '\"';      // \\u0022",
  c!"Hash:             '#';      // \\u0023",
  c!"Dollar:           '$';      // \\u0024",
  c!"Percent:          '%';      // \\u0025",
  c!"Ampersand:        '&';      // \\u0026",
  c!"SQuote:           '\\'';     // \\u0027",
  c!"LParens:          '(';      // \\u0028",
  c!"RParens:          ')';      // \\u0029",
  c!"Asterisk:         '*';      // \\u002A",
  c!"Plus:             '+';      // \\u002B",
  c!"Comma:            ',';      // \\u002C",
  c!"Minus:            '-';      // \\u002D",
  c!"Period:           '.';      // \\u002E",
  c!"Slash:            '/';      // \\u002F",
  c!"Digit:            [0-9];    // \\u0030 -- \\u0039",
  c!"Colon:            ':';      // \\u003A",
  c!"Semicolon:        ';';      // \\u003B",
  c!"Less:             '<';      // \\u003C",
  c!"Equal:            '=';      // \\u003D",
  c!"Greater:          '>';      // \\u003E",
  c!"Question:         '?';      // \\u003F",
  c!"At:               '@';      // \\u0040",
  c!"// alphaUpper",
  c!"LBracket:         '[';      // \\u005B",
  c!"Backslash:        '\\\\';     // \\u005C",
  c!"RBracket:         ']';      // \\u005D",
  c!"Caret:            '^';      // \\u005E",
  c!"Underscore:       '_';      // \\u005F",
  c!"Backtick:         '`';      // \\u0060",
  c!"// alphaLower",
  c!"LCurly:           '{';      // \\u007B",
  c!"Pipe:             '|';      // \\u007C",
  c!"RCurly:           '}';      // \\u007D",
  c!"Tilde:            '~';      // \\u007E",
  c!"",
  c!"// Other",
  c!"Delete: '\\u007F';",
  c!"",
  c!"// RFC6532 Extension",
  c!"UTF8NonAscii: '\\u0080'..'\\uFFFF';",
  c!"",
  c!"A: 'A'|'a';",
  c!"B: 'B'|'b';",
  c!"C: 'C'|'c';",
  c!"D: 'D'|'d';",
  c!"E: 'E'|'e';"]

/-- /repo/RFC5322Lexer.g4:61-81. -/
def lexerLines1 : List (List Char) := [
  c!"F: 'F'|'f';",
  c!"G: 'G'|'g';",
  c!"H: 'H'|'h';",
  c!"I: 'I'|'i';",
  c!"J: 'J'|'j';",
  c!"K: 'K'|'k';",
  c!"L: 'L'|'l';",
  c!"M: 'M'|'m';",
  c!"N: 'N'|'n';",
  c!"O: 'O'|'o';",
  c!"P: 'P'|'p';",
  c!"Q: 'Q'|'q';",
  c!"R: 'R'|'r';",
  c!"S: 'S'|'s';",
  c!"T: 'T'|'t';",
  c!"U: 'U'|'u';",
  c!"V: 'V'|'v';",
  c!"W: 'W'|'w';",
  c!"X: 'X'|'x';",
  c!"Y: 'Y'|'y';",
  c!"Z: 'Z'|'z';"]

/-- /repo/RFC5322Lexer.g4, the lines. -/
def lexerFile : List (List Char) :=
  lexerLines0 ++ lexerLines1

/-- /repo/RFC5322Parser.g4:1-60. -/
def parserLines0 : List (List Char) := [
  c!"parser grammar RFC5322Parser;",
  c!"",
  c!"options { tokenVocab=RFC5322Lexer; }",
  c!"",
  c!"",
  c!"// -------------------",
  c!"// 3.2. Lexical tokens",
  c!"// -------------------",
  c!"",
  c!"quotedChar: vchar | wsp;",
  c!"",
  c!"quotedPair",
  c!"\t: Backslash quotedChar",
  c!"\t| obsQP",
  c!"\t;",
  c!"",
  c!"fws ",
  c!"\t: (wsp* crlf)? wsp+",
  c!"\t| obsFWS",
  c!"\t;",
  c!"",
  c!"ctext",
  c!"\t: alpha",
  c!"\t| Exclamation",
  c!"\t| DQuote",
  c!"\t| Hash",
  c!"\t| Dollar",
  c!"\t| Percent",
  c!"\t| Ampersand",
  c!"\t| SQuote",
  c!"\t| Asterisk",
  c!"\t| Plus",
  c!"\t| Comma",
  c!"\t| Minus",
  c!"\t| Period",
  c!"\t| Slash",
  c!"\t| Digit",
  c!"\t| Colon",
  c!"\t| Semicolon",
  c!"\t| Less",
  c!"\t| Equal",
  c!"\t| Greater",
  c!"\t| Question",
  c!"\t| At",
  c!"\t| LBracket",
  c!"\t| RBracket",
  c!"\t| Caret",
  c!"\t| Underscore",
  c!"\t| Backtick",
  c!"\t| LCurly",
  c!"\t| Pipe",
  c!"\t| RCurly",
  c!"\t| Tilde",
  c!"\t| obsCtext",
  c!"\t| UTF8NonAscii",
  c!"\t;",
  c!"",
  c!"ccontent",
  c!"\t: ctext",
  c!"\t| quotedPair"]

/-- /repo/RFC5322Parser.g4:61-120. -/
def parserLines1 : List (List Char) := [
  c!"\t| comment",
  c!"\t;",
  c!"",
  c!"comment: LParens (fws? ccontent)* fws? RParens;",
  c!"",
  c!"cfws",
  c!"\t: (fws? comment)+ fws?",
  c!"\t| fws",
  c!"\t;",
  c!"",
  c!"atext",
  c!"\t: alpha",
  c!"\t| Digit",
  c!"\t| Exclamation ",
  c!"\t| Hash",
  c!"\t| Dollar ",
  c!"\t| Percent",
  c!"\t| Ampersand ",
  c!"\t| SQuote",
  c!"\t| Asterisk ",
  c!"\t| Plus",
  c!"\t| Minus ",
  c!"\t| Slash",
  c!"\t| Equal ",
  c!"\t| Question",
  c!"\t| Caret ",
  c!"\t| Underscore",
  c!"\t| Backtick ",
  c!"\t| LCurly",
  c!"\t| Pipe ",
  c!"\t| RCurly",
  c!"\t| Tilde",
  c!"\t| UTF8NonAscii",
  c!"\t;",
  c!"",
  c!"atom: atext+;",
  c!"",
  c!"// Allow dotAtom to have a trailing period; some messages in the wild look like this.",
  c!"dotAtom: atext+ (Period atext+)* Period?;",
  c!"",
  c!"qtext",
  c!"\t: alpha",
  c!"\t| Exclamation",
  c!"\t| Hash",
  c!"\t| Dollar",
  c!"\t| Percent",
  c!"\t| Ampersand",
  c!"\t| SQuote",
  c!"\t| LParens",
  c!"\t| RParens",
  c!"\t| Asterisk",
  c!"\t| Plus",
  c!"\t| Comma",
  c!"\t| Minus",
  c!"\t| Period",
  c!"\t| Slash",
  c!"\t| Digit",
  c!"\t| Colon",
  c!"\t| Semicolon",
  c!"\t| Less"]

/-- /repo/RFC5322Parser.g4:121-180. -/
def parserLines2 : List (List Char) := [
  c!"\t| Equal",
  c!"\t| Greater",
  c!"\t| Question",
  c!"\t| At",
  c!"\t| LBracket",
  c!"\t| RBracket",
  c!"\t| Caret",
  c!"\t| Underscore",
  c!"\t| Backtick",
  c!"\t| LCurly",
  c!"\t| Pipe",
  c!"\t| RCurly",
  c!"\t| Tilde",
  c!"\t| obsQtext",
  c!"\t| UTF8NonAscii",
  c!"\t;",
  c!"",
  c!"quotedContent",
  c!"\t: qtext",
  c!"\t| quotedPair",
  c!"\t;",
  c!"",
  c!"quotedValue: (fws? quotedContent)*;",
  c!"",
  c!"quotedString: DQuote quotedValue fws? DQuote;",
  c!"",
  c!"word",
  c!"\t: (cfws? encodedWord cfws?)+",
  c!"\t| cfws? atom cfws?",
  c!"\t| cfws? quotedString cfws?",
  c!"\t;",
  c!"",
  c!"",
  c!"// --------------------------------",
  c!"// 3.3. Date and Time Specification",
  c!"// --------------------------------",
  c!"",
  c!"dateTime: (dayOfweek Comma)? day month year hour Colon minute (Colon second)? zone? cfws? EOF;",
  c!"",
  c!"dayOfweek",
  c!"\t: fws? dayName ",
  c!"\t| cfws? dayName cfws?",
  c!"\t;",
  c!"",
  c!"dayName",
  c!"\t: M O N ",
  c!"\t| T U E ",
  c!"\t| W E D ",
  c!"\t| T H U ",
  c!"\t| F R I ",
  c!"\t| S A T ",
  c!"\t| S U N",
  c!"\t;",
  c!"",
  c!"day",
  c!"\t: fws? Digit Digit? fws ",
  c!"\t| cfws? Digit Digit? cfws?",
  c!"\t;",
  c!"",
  c!"month"]

/-- /repo/RFC5322Parser.g4:181-240. -/
def parserLines3 : List (List Char) := [
  c!"\t: J A N ",
  c!"\t| F E B ",
  c!"\t| M A R ",
  c!"\t| A P R ",
  c!"\t| M A Y ",
  c!"\t| J U N ",
  c!"\t| J U L ",
  c!"\t| A U G ",
  c!"\t| S E P ",
  c!"\t| O C T ",
  c!"\t| N O V ",
  c!"\t| D E C",
  c!"\t;",
  c!"",
  c!"year",
  c!"\t: fws Digit Digit Digit Digit fws ",
  c!"\t| cfws? Digit Digit cfws?",
  c!"\t;",
  c!"",
  c!"// NOTE: RFC5322 requires two digits for the hour, but we ",
  c!"// relax that requirement a bit, allowing single digits.",
  c!"hour",
  c!"\t: Digit? Digit ",
  c!"\t| cfws? Digit? Digit cfws?",
  c!"\t;",
  c!"",
  c!"minute",
  c!"\t: Digit Digit ",
  c!"\t| cfws? Digit Digit cfws?",
  c!"\t;",
  c!"",
  c!"second",
  c!"\t: Digit Digit ",
  c!"\t| cfws? Digit Digit cfws?",
  c!"\t;",
  c!"",
  c!"offset: (Plus | Minus)? Digit Digit Digit Digit;",
  c!"",
  c!"zone",
  c!"\t: fws offset",
  c!"\t| obsZone",
  c!"\t;",
  c!"",
  c!"",
  c!"// --------------------------",
  c!"// 3.4. Address Specification",
  c!"// --------------------------",
  c!"",
  c!"address",
  c!"\t: mailbox",
  c!"\t| group",
  c!"\t;",
  c!"",
  c!"mailbox",
  c!"\t: nameAddr",
  c!"\t| addrSpec",
  c!"\t;",
  c!"",
  c!"nameAddr: displayName? angleAddr;",
  c!""]

/-- /repo/RFC5322Parser.g4:241-300. -/
def parserLines4 : List (List Char) := [
  c!"angleAddr",
  c!"\t: cfws? Less addrSpec? Greater cfws?",
  c!"\t| obsAngleAddr",
  c!"\t;",
  c!"",
  c!"// relax this definition to allow the final semicolon to be optional",
  c!"// and to permit it to be surrounded by quotes.",
  c!"group: DQuote? displayName Colon groupList? DQuote? Semicolon? cfws?;",
  c!"",
  c!"unspaced: Period | At;",
  c!"",
  c!"displayName",
  c!"\t: word+",
  c!"\t| word (word | unspaced | cfws)*",
  c!"\t;",
  c!"",
  c!"mailboxList",
  c!"\t: mailbox (Comma mailbox)*",
  c!"\t| obsMboxList",
  c!"\t;",
  c!"",
  c!"addressList",
  c!"\t: address ((Comma | Semicolon) address)* EOF",
  c!"\t| obsAddrList EOF",
  c!"\t;",
  c!"",
  c!"groupList",
  c!"\t: mailboxList",
  c!"\t| cfws",
  c!"\t| obsGroupList",
  c!"\t;",
  c!"",
  c!"// Allow addrSpec contain a port.",
  c!"addrSpec: localPart At domain (Colon port)?;",
  c!"",
  c!"localPart",
  c!"\t: cfws? dotAtom cfws?",
  c!"\t| cfws? quotedString cfws?",
  c!"\t| obsLocalPart",
  c!"\t;",
  c!"",
  c!"port: Digit+;",
  c!"",
  c!"domain",
  c!"\t: cfws? dotAtom cfws? ",
  c!"\t| cfws? domainLiteral cfws?",
  c!"\t| cfws? obsDomain cfws?",
  c!"\t;",
  c!"",
  c!"domainLiteral: LBracket (fws? dtext)* fws? RBracket;",
  c!"",
  c!"dtext",
  c!"\t: alpha",
  c!"\t| Exclamation",
  c!"\t| DQuote",
  c!"\t| Hash",
  c!"\t| Dollar",
  c!"\t| Percent",
  c!"\t| Ampersand",
  c!"\t| SQuote"]

/-- /repo/RFC5322Parser.g4:301-360. -/
def parserLines5 : List (List Char) := [
  c!"\t| LParens",
  c!"\t| RParens",
  c!"\t| Asterisk",
  c!"\t| Plus",
  c!"\t| Comma",
  c!"\t| Minus",
  c!"\t| Period",
  c!"\t| Slash",
  c!"\t| Digit",
  c!"\t| Colon",
  c!"\t| Semicolon",
  c!"\t| Less",
  c!"\t| Equal",
  c!"\t| Greater",
  c!"\t| Question",
  c!"\t| At",
  c!"\t| Caret",
  c!"\t| Underscore",
  c!"\t| Backtick",
  c!"\t| LCurly",
  c!"\t| Pipe",
  c!"\t| RCurly",
  c!"\t| Tilde",
  c!"//| obsDtext",
  c!"\t| UTF8NonAscii",
  c!"\t;",
  c!"",
  c!"",
  c!"// ----------------------------------",
  c!"// 4.1. Miscellaneous Obsolete Tokens",
  c!"// ----------------------------------",
  c!"",
  c!"obsNoWSCTL",
  c!"\t: U_01_08",
  c!"\t| U_0B",
  c!"\t| U_0C",
  c!"\t| U_0E_1F",
  c!"\t| Delete",
  c!"\t;",
  c!"",
  c!"obsCtext: obsNoWSCTL;",
  c!"",
  c!"obsQtext: obsNoWSCTL;",
  c!"",
  c!"obsQP: Backslash (U_00 | obsNoWSCTL | LF | CR);",
  c!"",
  c!"",
  c!"// ---------------------------------",
  c!"// 4.2. Obsolete Folding White Space",
  c!"// ---------------------------------",
  c!"",
  c!"obsFWS: wsp+ (crlf wsp+);",
  c!"",
  c!"",
  c!"// ---------------------------",
  c!"// 4.3. Obsolete Date and Time",
  c!"// ---------------------------",
  c!"",
  c!"obsZone",
  c!"\t: U T "]

/-- /repo/RFC5322Parser.g4:361-420. -/
def parserLines6 : List (List Char) := [
  c!"\t| U T C",
  c!"\t| G M T",
  c!"\t| E S T",
  c!"\t| E D T",
  c!"\t| C S T",
  c!"\t| C D T",
  c!"\t| M S T",
  c!"\t| M D T",
  c!"\t| P S T",
  c!"\t| P D T",
  c!"//| obsZoneMilitary",
  c!"\t;",
  c!"",
  c!"",
  c!"// ------------------------",
  c!"// 4.4. Obsolete Addressing",
  c!"// ------------------------",
  c!"",
  c!"obsAngleAddr: cfws? Less obsRoute addrSpec Greater cfws?;",
  c!"",
  c!"obsRoute: obsDomainList Colon;",
  c!"",
  c!"obsDomainList: (cfws | Comma)* At domain (Comma cfws? (At domain)?)*;",
  c!"",
  c!"obsMboxList: (cfws? Comma)* mailbox (Comma (mailbox | cfws)?)*;",
  c!"",
  c!"obsAddrList: (cfws? Comma)* address (Comma (address | cfws)?)*;",
  c!"",
  c!"obsGroupList: (cfws? Comma)+ cfws?;",
  c!"",
  c!"obsLocalPart: word (Period word)*;",
  c!"",
  c!"obsDomain: atom (Period atom)*;",
  c!"",
  c!"",
  c!"// ------------------------------------",
  c!"// 2. Syntax of encoded-words (RFC2047)",
  c!"// ------------------------------------",
  c!"",
  c!"encodedWord: Equal Question charset Question encoding Question encodedText Question Equal;",
  c!"",
  c!"charset: token;",
  c!"",
  c!"encoding: token;",
  c!"",
  c!"token: tokenChar+;",
  c!"",
  c!"tokenChar",
  c!"\t: alpha",
  c!"\t| Exclamation",
  c!"\t| Hash",
  c!"\t| Dollar",
  c!"\t| Percent",
  c!"\t| Ampersand",
  c!"\t| SQuote",
  c!"\t| Asterisk",
  c!"\t| Plus",
  c!"\t| Minus",
  c!"\t| Digit",
  c!"\t| Backslash"]

/-- /repo/RFC5322Parser.g4:421-480. -/
def parserLines7 : List (List Char) := [
  c!"\t| Caret",
  c!"\t| Underscore",
  c!"\t| Backtick",
  c!"\t| LCurly",
  c!"\t| Pipe",
  c!"\t| RCurly",
  c!"\t| Tilde",
  c!"\t;",
  c!"",
  c!"encodedText: encodedChar+;",
  c!"",
  c!"encodedChar",
  c!"\t: alpha",
  c!"\t| Exclamation",
  c!"\t| DQuote",
  c!"\t| Hash",
  c!"\t| Dollar",
  c!"\t| Percent",
  c!"\t| Ampersand",
  c!"\t| SQuote",
  c!"\t| LParens",
  c!"\t| RParens",
  c!"\t| Asterisk",
  c!"\t| Plus",
  c!"\t| Comma",
  c!"\t| Minus",
  c!"\t| Period",
  c!"\t| Slash",
  c!"\t| Digit",
  c!"\t| Colon",
  c!"\t| Semicolon",
  c!"\t| Less",
  c!"\t| Equal",
  c!"\t| Greater",
  c!"\t| At",
  c!"\t| LBracket",
  c!"\t| Backslash",
  c!"\t| RBracket",
  c!"\t| Caret",
  c!"\t| Underscore",
  c!"\t| Backtick",
  c!"\t| LCurly",
  c!"\t| Pipe",
  c!"\t| RCurly",
  c!"\t| Tilde",
  c!"\t;",
  c!"",
  c!"",
  c!"// -------------------------",
  c!"// B.1. Core Rules (RFC5234)",
  c!"// -------------------------",
  c!"",
  c!"crlf: CR LF;",
  c!"",
  c!"wsp: SP | TAB;",
  c!"",
  c!"vchar",
  c!"\t: alpha",
  c!"\t| Exclamation",
  c!"\t| DQuote"]

/-- /repo/RFC5322Parser.g4:481-515. -/
def parserLines8 : List (List Char) := [
  c!"\t| Hash",
  c!"\t| Dollar",
  c!"\t| Percent",
  c!"\t| Ampersand",
  c!"\t| SQuote",
  c!"\t| LParens",
  c!"\t| RParens",
  c!"\t| Asterisk",
  c!"\t| Plus",
  c!"\t| Comma",
  c!"\t| Minus",
  c!"\t| Period",
  c!"\t| Slash",
  c!"\t| Digit",
  c!"\t| Colon",
  c!"\t| Semicolon",
  c!"\t| Less",
  c!"\t| Equal",
  c!"\t| Greater",
  c!"\t| Question",
  c!"\t| At",
  c!"\t| LBracket",
  c!"\t| Backslash",
  c!"\t| RBracket",
  c!"\t| Caret",
  c!"\t| Underscore",
  c!"\t| Backtick",
  c!"\t| LCurly",
  c!"\t| Pipe",
  c!"\t| RCurly",
  c!"\t| Tilde",
  c!"\t| UTF8NonAscii",
  c!"\t;",
  c!"",
  c!"alpha: A | B | C | D | E | F | G | H | I | J | K | L | M | N | O | P | Q | R | S | T | U | V | W | X | Y | Z ;"]

/-- /repo/RFC5322Parser.g4, the lines. -/
def parserFile : List (List Char) :=
  parserLines0 ++ parserLines1 ++ parserLines2 ++ parserLines3 ++ parserLines4 ++ parserLines5 ++ parserLines6 ++ parserLines7 ++ parserLines8

end Rfc5322.G4
