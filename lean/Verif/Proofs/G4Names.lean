import Verif.Spec.G4
import Verif.Model.Grammar

/-!
# Names of tokens and rules in the grammar files
-/

namespace Rfc5322.G4

/-- The name of a token type. -/
def tokName : Tok → Name
  | .U_00 => c!"U_00"
  | .U_01_08 => c!"U_01_08"
  | .TAB => c!"TAB"
  | .LF => c!"LF"
  | .U_0B => c!"U_0B"
  | .U_0C => c!"U_0C"
  | .CR => c!"CR"
  | .U_0E_1F => c!"U_0E_1F"
  | .SP => c!"SP"
  | .Exclamation => c!"Exclamation"
  | .DQuote => c!"DQuote"
  | .Hash => c!"Hash"
  | .Dollar => c!"Dollar"
  | .Percent => c!"Percent"
  | .Ampersand => c!"Ampersand"
  | .SQuote => c!"SQuote"
  | .LParens => c!"LParens"
  | .RParens => c!"RParens"
  | .Asterisk => c!"Asterisk"
  | .Plus => c!"Plus"
  | .Comma => c!"Comma"
  | .Minus => c!"Minus"
  | .Period => c!"Period"
  | .Slash => c!"Slash"
  | .Digit => c!"Digit"
  | .Colon => c!"Colon"
  | .Semicolon => c!"Semicolon"
  | .Less => c!"Less"
  | .Equal => c!"Equal"
  | .Greater => c!"Greater"
  | .Question => c!"Question"
  | .At => c!"At"
  | .LBracket => c!"LBracket"
  | .Backslash => c!"Backslash"
  | .RBracket => c!"RBracket"
  | .Caret => c!"Caret"
  | .Underscore => c!"Underscore"
  | .Backtick => c!"Backtick"
  | .LCurly => c!"LCurly"
  | .Pipe => c!"Pipe"
  | .RCurly => c!"RCurly"
  | .Tilde => c!"Tilde"
  | .Delete => c!"Delete"
  | .UTF8NonAscii => c!"UTF8NonAscii"
  | .A => c!"A"
  | .B => c!"B"
  | .C => c!"C"
  | .D => c!"D"
  | .E => c!"E"
  | .F => c!"F"
  | .G => c!"G"
  | .H => c!"H"
  | .I => c!"I"
  | .J => c!"J"
  | .K => c!"K"
  | .L => c!"L"
  | .M => c!"M"
  | .N => c!"N"
  | .O => c!"O"
  | .P => c!"P"
  | .Q => c!"Q"
  | .R => c!"R"
  | .S => c!"S"
  | .T => c!"T"
  | .U => c!"U"
  | .V => c!"V"
  | .W => c!"W"
  | .X => c!"X"
  | .Y => c!"Y"
  | .Z => c!"Z"

/-- The name of a rule. -/
def ruleName : Rule → Name
  | .quotedChar => c!"quotedChar"
  | .quotedPair => c!"quotedPair"
  | .fws => c!"fws"
  | .ctext => c!"ctext"
  | .ccontent => c!"ccontent"
  | .comment => c!"comment"
  | .cfws => c!"cfws"
  | .atext => c!"atext"
  | .atom => c!"atom"
  | .dotAtom => c!"dotAtom"
  | .qtext => c!"qtext"
  | .quotedContent => c!"quotedContent"
  | .quotedValue => c!"quotedValue"
  | .quotedString => c!"quotedString"
  | .word => c!"word"
  | .dateTime => c!"dateTime"
  | .dayOfweek => c!"dayOfweek"
  | .dayName => c!"dayName"
  | .day => c!"day"
  | .month => c!"month"
  | .year => c!"year"
  | .hour => c!"hour"
  | .minute => c!"minute"
  | .second => c!"second"
  | .offset => c!"offset"
  | .zone => c!"zone"
  | .address => c!"address"
  | .mailbox => c!"mailbox"
  | .nameAddr => c!"nameAddr"
  | .angleAddr => c!"angleAddr"
  | .group => c!"group"
  | .unspaced => c!"unspaced"
  | .displayName => c!"displayName"
  | .mailboxList => c!"mailboxList"
  | .addressList => c!"addressList"
  | .groupList => c!"groupList"
  | .addrSpec => c!"addrSpec"
  | .localPart => c!"localPart"
  | .port => c!"port"
  | .domain => c!"domain"
  | .domainLiteral => c!"domainLiteral"
  | .dtext => c!"dtext"
  | .obsNoWSCTL => c!"obsNoWSCTL"
  | .obsCtext => c!"obsCtext"
  | .obsQtext => c!"obsQtext"
  | .obsQP => c!"obsQP"
  | .obsFWS => c!"obsFWS"
  | .obsZone => c!"obsZone"
  | .obsAngleAddr => c!"obsAngleAddr"
  | .obsRoute => c!"obsRoute"
  | .obsDomainList => c!"obsDomainList"
  | .obsMboxList => c!"obsMboxList"
  | .obsAddrList => c!"obsAddrList"
  | .obsGroupList => c!"obsGroupList"
  | .obsLocalPart => c!"obsLocalPart"
  | .obsDomain => c!"obsDomain"
  | .encodedWord => c!"encodedWord"
  | .charset => c!"charset"
  | .encoding => c!"encoding"
  | .token => c!"token"
  | .tokenChar => c!"tokenChar"
  | .encodedText => c!"encodedText"
  | .encodedChar => c!"encodedChar"
  | .crlf => c!"crlf"
  | .wsp => c!"wsp"
  | .vchar => c!"vchar"
  | .alpha => c!"alpha"

end Rfc5322.G4
