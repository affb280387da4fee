import Verif.Proofs.AtnCheck

/-!
# The structure of the parser network, rule by rule

Made by tools/gen_atn.py; checked in `Verif/Proofs/Atn.lean`.
-/

namespace Rfc5322.Atn

def cert_quotedChar : Cert := (.alt 137 (.call .vchar) (.call .wsp))
def cert_quotedPair : Cert := (.alt 142 (.seq (.toks [.Backslash]) (.call .quotedChar)) (.call .obsQP))
def cert_fws : Cert := (.alt 159 (.seq (.alt 151 (.seq (.star 146 (.call .wsp)) (.call .crlf)) .eps) (.seq (.call .wsp) (.star 155 (.call .wsp)))) (.call .obsFWS))
def cert_ctext : Cert := (.alt 194 (.call .alpha) (.alt 194 (.toks [.Exclamation]) (.alt 194 (.toks [.DQuote]) (.alt 194 (.toks [.Hash]) (.alt 194 (.toks [.Dollar]) (.alt 194 (.toks [.Percent]) (.alt 194 (.toks [.Ampersand]) (.alt 194 (.toks [.SQuote]) (.alt 194 (.toks [.Asterisk]) (.alt 194 (.toks [.Plus]) (.alt 194 (.toks [.Comma]) (.alt 194 (.toks [.Minus]) (.alt 194 (.toks [.Period]) (.alt 194 (.toks [.Slash]) (.alt 194 (.toks [.Digit]) (.alt 194 (.toks [.Colon]) (.alt 194 (.toks [.Semicolon]) (.alt 194 (.toks [.Less]) (.alt 194 (.toks [.Equal]) (.alt 194 (.toks [.Greater]) (.alt 194 (.toks [.Question]) (.alt 194 (.toks [.At]) (.alt 194 (.toks [.LBracket]) (.alt 194 (.toks [.RBracket]) (.alt 194 (.toks [.Caret]) (.alt 194 (.toks [.Underscore]) (.alt 194 (.toks [.Backtick]) (.alt 194 (.toks [.LCurly]) (.alt 194 (.toks [.Pipe]) (.alt 194 (.toks [.RCurly]) (.alt 194 (.toks [.Tilde]) (.alt 194 (.call .obsCtext) (.toks [.UTF8NonAscii])))))))))))))))))))))))))))))))))
def cert_ccontent : Cert := (.alt 199 (.call .ctext) (.alt 199 (.call .quotedPair) (.call .comment)))
def cert_comment : Cert := (.seq (.toks [.LParens]) (.seq (.star 207 (.seq (.alt 203 (.call .fws) .eps) (.call .ccontent))) (.seq (.alt 212 (.call .fws) .eps) (.toks [.RParens]))))
def cert_cfws : Cert := (.alt 228 (.seq (.seq (.seq (.alt 217 (.call .fws) .eps) (.call .comment)) (.star 221 (.seq (.alt 217 (.call .fws) .eps) (.call .comment)))) (.alt 225 (.call .fws) .eps)) (.call .fws))
def cert_atext : Cert := (.alt 252 (.call .alpha) (.alt 252 (.toks [.Digit]) (.alt 252 (.toks [.Exclamation]) (.alt 252 (.toks [.Hash]) (.alt 252 (.toks [.Dollar]) (.alt 252 (.toks [.Percent]) (.alt 252 (.toks [.Ampersand]) (.alt 252 (.toks [.SQuote]) (.alt 252 (.toks [.Asterisk]) (.alt 252 (.toks [.Plus]) (.alt 252 (.toks [.Minus]) (.alt 252 (.toks [.Slash]) (.alt 252 (.toks [.Equal]) (.alt 252 (.toks [.Question]) (.alt 252 (.toks [.Caret]) (.alt 252 (.toks [.Underscore]) (.alt 252 (.toks [.Backtick]) (.alt 252 (.toks [.LCurly]) (.alt 252 (.toks [.Pipe]) (.alt 252 (.toks [.RCurly]) (.alt 252 (.toks [.Tilde]) (.toks [.UTF8NonAscii]))))))))))))))))))))))
def cert_atom : Cert := (.seq (.call .atext) (.star 256 (.call .atext)))
def cert_dotAtom : Cert := (.seq (.seq (.call .atext) (.star 261 (.call .atext))) (.seq (.star 271 (.seq (.toks [.Period]) (.seq (.call .atext) (.star 267 (.call .atext))))) (.alt 276 (.toks [.Period]) .eps)))
def cert_qtext : Cert := (.alt 312 (.call .alpha) (.alt 312 (.toks [.Exclamation]) (.alt 312 (.toks [.Hash]) (.alt 312 (.toks [.Dollar]) (.alt 312 (.toks [.Percent]) (.alt 312 (.toks [.Ampersand]) (.alt 312 (.toks [.SQuote]) (.alt 312 (.toks [.LParens]) (.alt 312 (.toks [.RParens]) (.alt 312 (.toks [.Asterisk]) (.alt 312 (.toks [.Plus]) (.alt 312 (.toks [.Comma]) (.alt 312 (.toks [.Minus]) (.alt 312 (.toks [.Period]) (.alt 312 (.toks [.Slash]) (.alt 312 (.toks [.Digit]) (.alt 312 (.toks [.Colon]) (.alt 312 (.toks [.Semicolon]) (.alt 312 (.toks [.Less]) (.alt 312 (.toks [.Equal]) (.alt 312 (.toks [.Greater]) (.alt 312 (.toks [.Question]) (.alt 312 (.toks [.At]) (.alt 312 (.toks [.LBracket]) (.alt 312 (.toks [.RBracket]) (.alt 312 (.toks [.Caret]) (.alt 312 (.toks [.Underscore]) (.alt 312 (.toks [.Backtick]) (.alt 312 (.toks [.LCurly]) (.alt 312 (.toks [.Pipe]) (.alt 312 (.toks [.RCurly]) (.alt 312 (.toks [.Tilde]) (.alt 312 (.call .obsQtext) (.toks [.UTF8NonAscii]))))))))))))))))))))))))))))))))))
def cert_quotedContent : Cert := (.alt 316 (.call .qtext) (.call .quotedPair))
def cert_quotedValue : Cert := (.star 323 (.seq (.alt 319 (.call .fws) .eps) (.call .quotedContent)))
def cert_quotedString : Cert := (.seq (.toks [.DQuote]) (.seq (.call .quotedValue) (.seq (.alt 330 (.call .fws) .eps) (.toks [.DQuote]))))
def cert_word : Cert := (.alt 359 (.seq (.seq (.alt 335 (.call .cfws) .eps) (.seq (.call .encodedWord) (.alt 339 (.call .cfws) .eps))) (.star 342 (.seq (.alt 335 (.call .cfws) .eps) (.seq (.call .encodedWord) (.alt 339 (.call .cfws) .eps))))) (.alt 359 (.seq (.alt 346 (.call .cfws) .eps) (.seq (.call .atom) (.alt 350 (.call .cfws) .eps))) (.seq (.alt 353 (.call .cfws) .eps) (.seq (.call .quotedString) (.alt 357 (.call .cfws) .eps)))))
def cert_dateTime : Cert := (.seq (.alt 364 (.seq (.call .dayOfweek) (.toks [.Comma])) .eps) (.seq (.call .day) (.seq (.call .month) (.seq (.call .year) (.seq (.call .hour) (.seq (.toks [.Colon]) (.seq (.call .minute) (.seq (.alt 374 (.seq (.toks [.Colon]) (.call .second)) .eps) (.seq (.alt 377 (.call .zone) .eps) (.seq (.alt 380 (.call .cfws) .eps) .eof))))))))))
def cert_dayOfweek : Cert := (.alt 395 (.seq (.alt 385 (.call .fws) .eps) (.call .dayName)) (.seq (.alt 389 (.call .cfws) .eps) (.seq (.call .dayName) (.alt 393 (.call .cfws) .eps))))
def cert_dayName : Cert := (.alt 418 (.seq (.toks [.M]) (.seq (.toks [.O]) (.toks [.N]))) (.alt 418 (.seq (.toks [.T]) (.seq (.toks [.U]) (.toks [.E]))) (.alt 418 (.seq (.toks [.W]) (.seq (.toks [.E]) (.toks [.D]))) (.alt 418 (.seq (.toks [.T]) (.seq (.toks [.H]) (.toks [.U]))) (.alt 418 (.seq (.toks [.F]) (.seq (.toks [.R]) (.toks [.I]))) (.alt 418 (.seq (.toks [.S]) (.seq (.toks [.A]) (.toks [.T]))) (.seq (.toks [.S]) (.seq (.toks [.U]) (.toks [.N])))))))))
def cert_day : Cert := (.alt 438 (.seq (.alt 421 (.call .fws) .eps) (.seq (.toks [.Digit]) (.seq (.alt 425 (.toks [.Digit]) .eps) (.call .fws)))) (.seq (.alt 429 (.call .cfws) .eps) (.seq (.toks [.Digit]) (.seq (.alt 433 (.toks [.Digit]) .eps) (.alt 436 (.call .cfws) .eps)))))
def cert_month : Cert := (.alt 476 (.seq (.toks [.J]) (.seq (.toks [.A]) (.toks [.N]))) (.alt 476 (.seq (.toks [.F]) (.seq (.toks [.E]) (.toks [.B]))) (.alt 476 (.seq (.toks [.M]) (.seq (.toks [.A]) (.toks [.R]))) (.alt 476 (.seq (.toks [.A]) (.seq (.toks [.P]) (.toks [.R]))) (.alt 476 (.seq (.toks [.M]) (.seq (.toks [.A]) (.toks [.Y]))) (.alt 476 (.seq (.toks [.J]) (.seq (.toks [.U]) (.toks [.N]))) (.alt 476 (.seq (.toks [.J]) (.seq (.toks [.U]) (.toks [.L]))) (.alt 476 (.seq (.toks [.A]) (.seq (.toks [.U]) (.toks [.G]))) (.alt 476 (.seq (.toks [.S]) (.seq (.toks [.E]) (.toks [.P]))) (.alt 476 (.seq (.toks [.O]) (.seq (.toks [.C]) (.toks [.T]))) (.alt 476 (.seq (.toks [.N]) (.seq (.toks [.O]) (.toks [.V]))) (.seq (.toks [.D]) (.seq (.toks [.E]) (.toks [.C]))))))))))))))
def cert_year : Cert := (.alt 493 (.seq (.call .fws) (.seq (.toks [.Digit]) (.seq (.toks [.Digit]) (.seq (.toks [.Digit]) (.seq (.toks [.Digit]) (.call .fws)))))) (.seq (.alt 486 (.call .cfws) .eps) (.seq (.toks [.Digit]) (.seq (.toks [.Digit]) (.alt 491 (.call .cfws) .eps)))))
def cert_hour : Cert := (.alt 509 (.seq (.alt 496 (.toks [.Digit]) .eps) (.toks [.Digit])) (.seq (.alt 500 (.call .cfws) .eps) (.seq (.alt 503 (.toks [.Digit]) .eps) (.seq (.toks [.Digit]) (.alt 507 (.call .cfws) .eps)))))
def cert_minute : Cert := (.alt 521 (.seq (.toks [.Digit]) (.toks [.Digit])) (.seq (.alt 514 (.call .cfws) .eps) (.seq (.toks [.Digit]) (.seq (.toks [.Digit]) (.alt 519 (.call .cfws) .eps)))))
def cert_second : Cert := (.alt 533 (.seq (.toks [.Digit]) (.toks [.Digit])) (.seq (.alt 526 (.call .cfws) .eps) (.seq (.toks [.Digit]) (.seq (.toks [.Digit]) (.alt 531 (.call .cfws) .eps)))))
def cert_offset : Cert := (.seq (.alt 536 (.toks [.Plus, .Minus]) .eps) (.seq (.toks [.Digit]) (.seq (.toks [.Digit]) (.seq (.toks [.Digit]) (.toks [.Digit])))))
def cert_zone : Cert := (.alt 547 (.seq (.call .fws) (.call .offset)) (.call .obsZone))
def cert_address : Cert := (.alt 551 (.call .mailbox) (.call .group))
def cert_mailbox : Cert := (.alt 555 (.call .nameAddr) (.call .addrSpec))
def cert_nameAddr : Cert := (.seq (.alt 558 (.call .displayName) .eps) (.call .angleAddr))
def cert_angleAddr : Cert := (.alt 574 (.seq (.alt 563 (.call .cfws) .eps) (.seq (.toks [.Less]) (.seq (.alt 567 (.call .addrSpec) .eps) (.seq (.toks [.Greater]) (.alt 571 (.call .cfws) .eps))))) (.call .obsAngleAddr))
def cert_group : Cert := (.seq (.alt 577 (.toks [.DQuote]) .eps) (.seq (.call .displayName) (.seq (.toks [.Colon]) (.seq (.alt 582 (.call .groupList) .eps) (.seq (.alt 585 (.toks [.DQuote]) .eps) (.seq (.alt 588 (.toks [.Semicolon]) .eps) (.alt 591 (.call .cfws) .eps)))))))
def cert_unspaced : Cert := (.toks [.Period, .At])
def cert_displayName : Cert := (.alt 609 (.seq (.call .word) (.star 597 (.call .word))) (.seq (.call .word) (.star 605 (.alt 604 (.call .word) (.alt 604 (.call .unspaced) (.call .cfws))))))
def cert_mailboxList : Cert := (.alt 620 (.seq (.call .mailbox) (.star 615 (.seq (.toks [.Comma]) (.call .mailbox)))) (.call .obsMboxList))
def cert_addressList : Cert := (.alt 635 (.seq (.call .address) (.seq (.star 626 (.seq (.toks [.Comma, .Semicolon]) (.call .address))) .eof)) (.seq (.call .obsAddrList) .eof))
def cert_groupList : Cert := (.alt 640 (.call .mailboxList) (.alt 640 (.call .cfws) (.call .obsGroupList)))
def cert_addrSpec : Cert := (.seq (.call .localPart) (.seq (.toks [.At]) (.seq (.call .domain) (.alt 647 (.seq (.toks [.Colon]) (.call .port)) .eps))))
def cert_localPart : Cert := (.alt 664 (.seq (.alt 650 (.call .cfws) .eps) (.seq (.call .dotAtom) (.alt 654 (.call .cfws) .eps))) (.alt 664 (.seq (.alt 657 (.call .cfws) .eps) (.seq (.call .quotedString) (.alt 661 (.call .cfws) .eps))) (.call .obsLocalPart)))
def cert_port : Cert := (.seq (.toks [.Digit]) (.star 668 (.toks [.Digit])))
def cert_domain : Cert := (.alt 692 (.seq (.alt 672 (.call .cfws) .eps) (.seq (.call .dotAtom) (.alt 676 (.call .cfws) .eps))) (.alt 692 (.seq (.alt 679 (.call .cfws) .eps) (.seq (.call .domainLiteral) (.alt 683 (.call .cfws) .eps))) (.seq (.alt 686 (.call .cfws) .eps) (.seq (.call .obsDomain) (.alt 690 (.call .cfws) .eps)))))
def cert_domainLiteral : Cert := (.seq (.toks [.LBracket]) (.seq (.star 700 (.seq (.alt 696 (.call .fws) .eps) (.call .dtext))) (.seq (.alt 705 (.call .fws) .eps) (.toks [.RBracket]))))
def cert_dtext : Cert := (.alt 741 (.call .alpha) (.alt 741 (.toks [.Exclamation]) (.alt 741 (.toks [.DQuote]) (.alt 741 (.toks [.Hash]) (.alt 741 (.toks [.Dollar]) (.alt 741 (.toks [.Percent]) (.alt 741 (.toks [.Ampersand]) (.alt 741 (.toks [.SQuote]) (.alt 741 (.toks [.LParens]) (.alt 741 (.toks [.RParens]) (.alt 741 (.toks [.Asterisk]) (.alt 741 (.toks [.Plus]) (.alt 741 (.toks [.Comma]) (.alt 741 (.toks [.Minus]) (.alt 741 (.toks [.Period]) (.alt 741 (.toks [.Slash]) (.alt 741 (.toks [.Digit]) (.alt 741 (.toks [.Colon]) (.alt 741 (.toks [.Semicolon]) (.alt 741 (.toks [.Less]) (.alt 741 (.toks [.Equal]) (.alt 741 (.toks [.Greater]) (.alt 741 (.toks [.Question]) (.alt 741 (.toks [.At]) (.alt 741 (.toks [.Caret]) (.alt 741 (.toks [.Underscore]) (.alt 741 (.toks [.Backtick]) (.alt 741 (.toks [.LCurly]) (.alt 741 (.toks [.Pipe]) (.alt 741 (.toks [.RCurly]) (.alt 741 (.toks [.Tilde]) (.toks [.UTF8NonAscii]))))))))))))))))))))))))))))))))
def cert_obsNoWSCTL : Cert := (.toks [.U_01_08, .U_0B, .U_0C, .U_0E_1F, .Delete])
def cert_obsCtext : Cert := (.call .obsNoWSCTL)
def cert_obsQtext : Cert := (.call .obsNoWSCTL)
def cert_obsQP : Cert := (.seq (.toks [.Backslash]) (.alt 754 (.toks [.U_00]) (.alt 754 (.call .obsNoWSCTL) (.alt 754 (.toks [.LF]) (.toks [.CR])))))
def cert_obsFWS : Cert := (.seq (.seq (.call .wsp) (.star 758 (.call .wsp))) (.seq (.call .crlf) (.seq (.call .wsp) (.star 764 (.call .wsp)))))
def cert_obsZone : Cert := (.alt 799 (.seq (.toks [.U]) (.toks [.T])) (.alt 799 (.seq (.toks [.U]) (.seq (.toks [.T]) (.toks [.C]))) (.alt 799 (.seq (.toks [.G]) (.seq (.toks [.M]) (.toks [.T]))) (.alt 799 (.seq (.toks [.E]) (.seq (.toks [.S]) (.toks [.T]))) (.alt 799 (.seq (.toks [.E]) (.seq (.toks [.D]) (.toks [.T]))) (.alt 799 (.seq (.toks [.C]) (.seq (.toks [.S]) (.toks [.T]))) (.alt 799 (.seq (.toks [.C]) (.seq (.toks [.D]) (.toks [.T]))) (.alt 799 (.seq (.toks [.M]) (.seq (.toks [.S]) (.toks [.T]))) (.alt 799 (.seq (.toks [.M]) (.seq (.toks [.D]) (.toks [.T]))) (.alt 799 (.seq (.toks [.P]) (.seq (.toks [.S]) (.toks [.T]))) (.seq (.toks [.P]) (.seq (.toks [.D]) (.toks [.T])))))))))))))
def cert_obsAngleAddr : Cert := (.seq (.alt 802 (.call .cfws) .eps) (.seq (.toks [.Less]) (.seq (.call .obsRoute) (.seq (.call .addrSpec) (.seq (.toks [.Greater]) (.alt 809 (.call .cfws) .eps))))))
def cert_obsRoute : Cert := (.seq (.call .obsDomainList) (.toks [.Colon]))
def cert_obsDomainList : Cert := (.seq (.star 817 (.alt 816 (.call .cfws) (.toks [.Comma]))) (.seq (.toks [.At]) (.seq (.call .domain) (.star 832 (.seq (.toks [.Comma]) (.seq (.alt 825 (.call .cfws) .eps) (.alt 829 (.seq (.toks [.At]) (.call .domain)) .eps)))))))
def cert_obsMboxList : Cert := (.seq (.star 841 (.seq (.alt 837 (.call .cfws) .eps) (.toks [.Comma]))) (.seq (.call .mailbox) (.star 852 (.seq (.toks [.Comma]) (.alt 849 (.call .mailbox) (.alt 849 (.call .cfws) .eps))))))
def cert_obsAddrList : Cert := (.seq (.star 861 (.seq (.alt 857 (.call .cfws) .eps) (.toks [.Comma]))) (.seq (.call .address) (.star 872 (.seq (.toks [.Comma]) (.alt 869 (.call .address) (.alt 869 (.call .cfws) .eps))))))
def cert_obsGroupList : Cert := (.seq (.seq (.seq (.alt 877 (.call .cfws) .eps) (.toks [.Comma])) (.star 881 (.seq (.alt 877 (.call .cfws) .eps) (.toks [.Comma])))) (.alt 885 (.call .cfws) .eps))
def cert_obsLocalPart : Cert := (.seq (.call .word) (.star 891 (.seq (.toks [.Period]) (.call .word))))
def cert_obsDomain : Cert := (.seq (.call .atom) (.star 899 (.seq (.toks [.Period]) (.call .atom))))
def cert_encodedWord : Cert := (.seq (.toks [.Equal]) (.seq (.toks [.Question]) (.seq (.call .charset) (.seq (.toks [.Question]) (.seq (.call .encoding) (.seq (.toks [.Question]) (.seq (.call .encodedText) (.seq (.toks [.Question]) (.toks [.Equal])))))))))
def cert_charset : Cert := (.call .token)
def cert_encoding : Cert := (.call .token)
def cert_token : Cert := (.seq (.call .tokenChar) (.star 919 (.call .tokenChar)))
def cert_tokenChar : Cert := (.alt 941 (.call .alpha) (.alt 941 (.toks [.Exclamation]) (.alt 941 (.toks [.Hash]) (.alt 941 (.toks [.Dollar]) (.alt 941 (.toks [.Percent]) (.alt 941 (.toks [.Ampersand]) (.alt 941 (.toks [.SQuote]) (.alt 941 (.toks [.Asterisk]) (.alt 941 (.toks [.Plus]) (.alt 941 (.toks [.Minus]) (.alt 941 (.toks [.Digit]) (.alt 941 (.toks [.Backslash]) (.alt 941 (.toks [.Caret]) (.alt 941 (.toks [.Underscore]) (.alt 941 (.toks [.Backtick]) (.alt 941 (.toks [.LCurly]) (.alt 941 (.toks [.Pipe]) (.alt 941 (.toks [.RCurly]) (.toks [.Tilde])))))))))))))))))))
def cert_encodedText : Cert := (.seq (.call .encodedChar) (.star 945 (.call .encodedChar)))
def cert_encodedChar : Cert := (.alt 981 (.call .alpha) (.alt 981 (.toks [.Exclamation]) (.alt 981 (.toks [.DQuote]) (.alt 981 (.toks [.Hash]) (.alt 981 (.toks [.Dollar]) (.alt 981 (.toks [.Percent]) (.alt 981 (.toks [.Ampersand]) (.alt 981 (.toks [.SQuote]) (.alt 981 (.toks [.LParens]) (.alt 981 (.toks [.RParens]) (.alt 981 (.toks [.Asterisk]) (.alt 981 (.toks [.Plus]) (.alt 981 (.toks [.Comma]) (.alt 981 (.toks [.Minus]) (.alt 981 (.toks [.Period]) (.alt 981 (.toks [.Slash]) (.alt 981 (.toks [.Digit]) (.alt 981 (.toks [.Colon]) (.alt 981 (.toks [.Semicolon]) (.alt 981 (.toks [.Less]) (.alt 981 (.toks [.Equal]) (.alt 981 (.toks [.Greater]) (.alt 981 (.toks [.At]) (.alt 981 (.toks [.LBracket]) (.alt 981 (.toks [.Backslash]) (.alt 981 (.toks [.RBracket]) (.alt 981 (.toks [.Caret]) (.alt 981 (.toks [.Underscore]) (.alt 981 (.toks [.Backtick]) (.alt 981 (.toks [.LCurly]) (.alt 981 (.toks [.Pipe]) (.alt 981 (.toks [.RCurly]) (.toks [.Tilde])))))))))))))))))))))))))))))))))
def cert_crlf : Cert := (.seq (.toks [.CR]) (.toks [.LF]))
def cert_wsp : Cert := (.toks [.TAB, .SP])
def cert_vchar : Cert := (.alt 1023 (.call .alpha) (.alt 1023 (.toks [.Exclamation]) (.alt 1023 (.toks [.DQuote]) (.alt 1023 (.toks [.Hash]) (.alt 1023 (.toks [.Dollar]) (.alt 1023 (.toks [.Percent]) (.alt 1023 (.toks [.Ampersand]) (.alt 1023 (.toks [.SQuote]) (.alt 1023 (.toks [.LParens]) (.alt 1023 (.toks [.RParens]) (.alt 1023 (.toks [.Asterisk]) (.alt 1023 (.toks [.Plus]) (.alt 1023 (.toks [.Comma]) (.alt 1023 (.toks [.Minus]) (.alt 1023 (.toks [.Period]) (.alt 1023 (.toks [.Slash]) (.alt 1023 (.toks [.Digit]) (.alt 1023 (.toks [.Colon]) (.alt 1023 (.toks [.Semicolon]) (.alt 1023 (.toks [.Less]) (.alt 1023 (.toks [.Equal]) (.alt 1023 (.toks [.Greater]) (.alt 1023 (.toks [.Question]) (.alt 1023 (.toks [.At]) (.alt 1023 (.toks [.LBracket]) (.alt 1023 (.toks [.Backslash]) (.alt 1023 (.toks [.RBracket]) (.alt 1023 (.toks [.Caret]) (.alt 1023 (.toks [.Underscore]) (.alt 1023 (.toks [.Backtick]) (.alt 1023 (.toks [.LCurly]) (.alt 1023 (.toks [.Pipe]) (.alt 1023 (.toks [.RCurly]) (.alt 1023 (.toks [.Tilde]) (.toks [.UTF8NonAscii])))))))))))))))))))))))))))))))))))
def cert_alpha : Cert := (.toks [.A, .B, .C, .D, .E, .F, .G, .H, .I, .J, .K, .L, .M, .N, .O, .P, .Q, .R, .S, .T, .U, .V, .W, .X, .Y, .Z])

/-- The structure of a rule. -/
def cert : Rule → Cert
  | .quotedChar => cert_quotedChar
  | .quotedPair => cert_quotedPair
  | .fws => cert_fws
  | .ctext => cert_ctext
  | .ccontent => cert_ccontent
  | .comment => cert_comment
  | .cfws => cert_cfws
  | .atext => cert_atext
  | .atom => cert_atom
  | .dotAtom => cert_dotAtom
  | .qtext => cert_qtext
  | .quotedContent => cert_quotedContent
  | .quotedValue => cert_quotedValue
  | .quotedString => cert_quotedString
  | .word => cert_word
  | .dateTime => cert_dateTime
  | .dayOfweek => cert_dayOfweek
  | .dayName => cert_dayName
  | .day => cert_day
  | .month => cert_month
  | .year => cert_year
  | .hour => cert_hour
  | .minute => cert_minute
  | .second => cert_second
  | .offset => cert_offset
  | .zone => cert_zone
  | .address => cert_address
  | .mailbox => cert_mailbox
  | .nameAddr => cert_nameAddr
  | .angleAddr => cert_angleAddr
  | .group => cert_group
  | .unspaced => cert_unspaced
  | .displayName => cert_displayName
  | .mailboxList => cert_mailboxList
  | .addressList => cert_addressList
  | .groupList => cert_groupList
  | .addrSpec => cert_addrSpec
  | .localPart => cert_localPart
  | .port => cert_port
  | .domain => cert_domain
  | .domainLiteral => cert_domainLiteral
  | .dtext => cert_dtext
  | .obsNoWSCTL => cert_obsNoWSCTL
  | .obsCtext => cert_obsCtext
  | .obsQtext => cert_obsQtext
  | .obsQP => cert_obsQP
  | .obsFWS => cert_obsFWS
  | .obsZone => cert_obsZone
  | .obsAngleAddr => cert_obsAngleAddr
  | .obsRoute => cert_obsRoute
  | .obsDomainList => cert_obsDomainList
  | .obsMboxList => cert_obsMboxList
  | .obsAddrList => cert_obsAddrList
  | .obsGroupList => cert_obsGroupList
  | .obsLocalPart => cert_obsLocalPart
  | .obsDomain => cert_obsDomain
  | .encodedWord => cert_encodedWord
  | .charset => cert_charset
  | .encoding => cert_encoding
  | .token => cert_token
  | .tokenChar => cert_tokenChar
  | .encodedText => cert_encodedText
  | .encodedChar => cert_encodedChar
  | .crlf => cert_crlf
  | .wsp => cert_wsp
  | .vchar => cert_vchar
  | .alpha => cert_alpha

end Rfc5322.Atn
