import Verif.Model.Generated

/-!
# The functions of the generated parser

Written by tools/gen_code.py from the Go text, function by function.
-/

namespace Rfc5322.Gen

/-- `(*RFC5322Parser).QuotedChar` (/repo/parser/rfc5322_parser.go:872-918). -/
def code_quotedChar : Code :=
  (.switchLa 136 (.toks [.Exclamation, .DQuote, .Hash, .Dollar, .Percent, .Ampersand, .SQuote, .LParens, .RParens, .Asterisk, .Plus, .Comma,
    .Minus, .Period, .Slash, .Digit, .Colon, .Semicolon, .Less, .Equal, .Greater, .Question, .At, .LBracket, .Backslash, .RBracket, .Caret,
    .Underscore, .Backtick, .LCurly, .Pipe, .RCurly, .Tilde, .UTF8NonAscii, .A, .B, .C, .D, .E, .F, .G, .H, .I, .J, .K, .L, .M, .N, .O, .P, .Q, .R,
    .S, .T, .U, .V, .W, .X, .Y, .Z] (.call 134 .vchar) (.toks [.TAB, .SP] (.call 135 .wsp) .nil)))

/-- `(*RFC5322Parser).QuotedPair` (/repo/parser/rfc5322_parser.go:1014-1061). -/
def code_quotedPair : Code :=
  (.switchAlt 141 1 (.alt 1 (.seq (.tok 138 .Backslash) (.call 139 .quotedChar)) (.alt 2 (.call 140 .obsQP) .nil)))

/-- `(*RFC5322Parser).Fws` (/repo/parser/rfc5322_parser.go:1194-1279). -/
def code_fws : Code :=
  (.switchAlt 158 5 (.alt 1 (.seq (.switchAlt 150 3 (.alt 1 (.seq (.star 146 148 (.la (.or (.eq .TAB) (.eq .SP))) (.call 143 .wsp)) (.call 149
    .crlf)) .nil)) (.plus 153 155 (.alt 4) (.call 152 .wsp))) (.alt 2 (.call 157 .obsFWS) .nil)))

/-- `(*RFC5322Parser).Ctext` (/repo/parser/rfc5322_parser.go:1495-1758). -/
def code_ctext : Code :=
  (.switchLa 193 (.toks [.A, .B, .C, .D, .E, .F, .G, .H, .I, .J, .K, .L, .M, .N, .O, .P, .Q, .R, .S, .T, .U, .V, .W, .X, .Y, .Z] (.call 160 .alpha)
    (.toks [.Exclamation] (.tok 161 .Exclamation) (.toks [.DQuote] (.tok 162 .DQuote) (.toks [.Hash] (.tok 163 .Hash) (.toks [.Dollar] (.tok 164
    .Dollar) (.toks [.Percent] (.tok 165 .Percent) (.toks [.Ampersand] (.tok 166 .Ampersand) (.toks [.SQuote] (.tok 167 .SQuote) (.toks [.Asterisk]
    (.tok 168 .Asterisk) (.toks [.Plus] (.tok 169 .Plus) (.toks [.Comma] (.tok 170 .Comma) (.toks [.Minus] (.tok 171 .Minus) (.toks [.Period] (.tok
    172 .Period) (.toks [.Slash] (.tok 173 .Slash) (.toks [.Digit] (.tok 174 .Digit) (.toks [.Colon] (.tok 175 .Colon) (.toks [.Semicolon] (.tok
    176 .Semicolon) (.toks [.Less] (.tok 177 .Less) (.toks [.Equal] (.tok 178 .Equal) (.toks [.Greater] (.tok 179 .Greater) (.toks [.Question]
    (.tok 180 .Question) (.toks [.At] (.tok 181 .At) (.toks [.LBracket] (.tok 182 .LBracket) (.toks [.RBracket] (.tok 183 .RBracket) (.toks
    [.Caret] (.tok 184 .Caret) (.toks [.Underscore] (.tok 185 .Underscore) (.toks [.Backtick] (.tok 186 .Backtick) (.toks [.LCurly] (.tok 187
    .LCurly) (.toks [.Pipe] (.tok 188 .Pipe) (.toks [.RCurly] (.tok 189 .RCurly) (.toks [.Tilde] (.tok 190 .Tilde) (.toks [.U_01_08, .U_0B, .U_0C,
    .U_0E_1F, .Delete] (.call 191 .obsCtext) (.toks [.UTF8NonAscii] (.tok 192 .UTF8NonAscii) .nil))))))))))))))))))))))))))))))))))

/-- `(*RFC5322Parser).Ccontent` (/repo/parser/rfc5322_parser.go:1866-1919). -/
def code_ccontent : Code :=
  (.switchLa 198 (.toks [.U_01_08, .U_0B, .U_0C, .U_0E_1F, .Exclamation, .DQuote, .Hash, .Dollar, .Percent, .Ampersand, .SQuote, .Asterisk, .Plus,
    .Comma, .Minus, .Period, .Slash, .Digit, .Colon, .Semicolon, .Less, .Equal, .Greater, .Question, .At, .LBracket, .RBracket, .Caret,
    .Underscore, .Backtick, .LCurly, .Pipe, .RCurly, .Tilde, .Delete, .UTF8NonAscii, .A, .B, .C, .D, .E, .F, .G, .H, .I, .J, .K, .L, .M, .N, .O,
    .P, .Q, .R, .S, .T, .U, .V, .W, .X, .Y, .Z] (.call 195 .ctext) (.toks [.Backslash] (.call 196 .quotedPair) (.toks [.LParens] (.call 197
    .comment) .nil))))

/-- `(*RFC5322Parser).Comment` (/repo/parser/rfc5322_parser.go:2069-2144). -/
def code_comment : Code :=
  (.seq (.tok 200 .LParens) (.seq (.star 207 209 (.alt 9) (.seq (.ifLa 202 (.bits 0 [.TAB, .CR, .SP]) (.call 201 .fws)) (.call 204 .ccontent)))
    (.seq (.ifLa 211 (.bits 0 [.TAB, .CR, .SP]) (.call 210 .fws)) (.tok 213 .RParens))))

/-- `(*RFC5322Parser).Cfws` (/repo/parser/rfc5322_parser.go:2286-2368). -/
def code_cfws : Code :=
  (.switchAlt 227 14 (.alt 1 (.seq (.plus 219 221 (.alt 12) (.seq (.ifLa 216 (.bits 0 [.TAB, .CR, .SP]) (.call 215 .fws)) (.call 218 .comment)))
    (.switchAlt 224 13 (.alt 1 (.call 223 .fws) .nil))) (.alt 2 (.call 226 .fws) .nil)))

/-- `(*RFC5322Parser).Atext` (/repo/parser/rfc5322_parser.go:2528-2714). -/
def code_atext : Code :=
  (.switchLa 251 (.toks [.A, .B, .C, .D, .E, .F, .G, .H, .I, .J, .K, .L, .M, .N, .O, .P, .Q, .R, .S, .T, .U, .V, .W, .X, .Y, .Z] (.call 229 .alpha)
    (.toks [.Digit] (.tok 230 .Digit) (.toks [.Exclamation] (.tok 231 .Exclamation) (.toks [.Hash] (.tok 232 .Hash) (.toks [.Dollar] (.tok 233
    .Dollar) (.toks [.Percent] (.tok 234 .Percent) (.toks [.Ampersand] (.tok 235 .Ampersand) (.toks [.SQuote] (.tok 236 .SQuote) (.toks [.Asterisk]
    (.tok 237 .Asterisk) (.toks [.Plus] (.tok 238 .Plus) (.toks [.Minus] (.tok 239 .Minus) (.toks [.Slash] (.tok 240 .Slash) (.toks [.Equal] (.tok
    241 .Equal) (.toks [.Question] (.tok 242 .Question) (.toks [.Caret] (.tok 243 .Caret) (.toks [.Underscore] (.tok 244 .Underscore) (.toks
    [.Backtick] (.tok 245 .Backtick) (.toks [.LCurly] (.tok 246 .LCurly) (.toks [.Pipe] (.tok 247 .Pipe) (.toks [.RCurly] (.tok 248 .RCurly) (.toks
    [.Tilde] (.tok 249 .Tilde) (.toks [.UTF8NonAscii] (.tok 250 .UTF8NonAscii) .nil)))))))))))))))))))))))

/-- `(*RFC5322Parser).Atom` (/repo/parser/rfc5322_parser.go:2815-2862). -/
def code_atom : Code :=
  (.plus 254 256 (.alt 16) (.call 253 .atext))

/-- `(*RFC5322Parser).DotAtom` (/repo/parser/rfc5322_parser.go:2971-3055). -/
def code_dotAtom : Code :=
  (.seq (.plus 259 261 (.la (.or (.bits 10 [.Exclamation, .Hash, .Dollar, .Percent, .Ampersand, .SQuote, .Asterisk, .Plus, .Minus, .Slash, .Digit,
    .Equal, .Question, .Caret, .Underscore, .Backtick, .LCurly, .Pipe, .RCurly]) (.bits 42 [.Tilde, .UTF8NonAscii, .A, .B, .C, .D, .E, .F, .G, .H,
    .I, .J, .K, .L, .M, .N, .O, .P, .Q, .R, .S, .T, .U, .V, .W, .X, .Y, .Z]))) (.call 258 .atext)) (.seq (.star 271 273 (.alt 19) (.seq (.tok 263
    .Period) (.plus 265 267 (.la (.or (.bits 10 [.Exclamation, .Hash, .Dollar, .Percent, .Ampersand, .SQuote, .Asterisk, .Plus, .Minus, .Slash,
    .Digit, .Equal, .Question, .Caret, .Underscore, .Backtick, .LCurly, .Pipe, .RCurly]) (.bits 42 [.Tilde, .UTF8NonAscii, .A, .B, .C, .D, .E, .F,
    .G, .H, .I, .J, .K, .L, .M, .N, .O, .P, .Q, .R, .S, .T, .U, .V, .W, .X, .Y, .Z]))) (.call 264 .atext)))) (.ifLa 275 (.eq .Period) (.tok 274
    .Period))))

/-- `(*RFC5322Parser).Qtext` (/repo/parser/rfc5322_parser.go:3275-3545). -/
def code_qtext : Code :=
  (.switchLa 311 (.toks [.A, .B, .C, .D, .E, .F, .G, .H, .I, .J, .K, .L, .M, .N, .O, .P, .Q, .R, .S, .T, .U, .V, .W, .X, .Y, .Z] (.call 277 .alpha)
    (.toks [.Exclamation] (.tok 278 .Exclamation) (.toks [.Hash] (.tok 279 .Hash) (.toks [.Dollar] (.tok 280 .Dollar) (.toks [.Percent] (.tok 281
    .Percent) (.toks [.Ampersand] (.tok 282 .Ampersand) (.toks [.SQuote] (.tok 283 .SQuote) (.toks [.LParens] (.tok 284 .LParens) (.toks [.RParens]
    (.tok 285 .RParens) (.toks [.Asterisk] (.tok 286 .Asterisk) (.toks [.Plus] (.tok 287 .Plus) (.toks [.Comma] (.tok 288 .Comma) (.toks [.Minus]
    (.tok 289 .Minus) (.toks [.Period] (.tok 290 .Period) (.toks [.Slash] (.tok 291 .Slash) (.toks [.Digit] (.tok 292 .Digit) (.toks [.Colon] (.tok
    293 .Colon) (.toks [.Semicolon] (.tok 294 .Semicolon) (.toks [.Less] (.tok 295 .Less) (.toks [.Equal] (.tok 296 .Equal) (.toks [.Greater] (.tok
    297 .Greater) (.toks [.Question] (.tok 298 .Question) (.toks [.At] (.tok 299 .At) (.toks [.LBracket] (.tok 300 .LBracket) (.toks [.RBracket]
    (.tok 301 .RBracket) (.toks [.Caret] (.tok 302 .Caret) (.toks [.Underscore] (.tok 303 .Underscore) (.toks [.Backtick] (.tok 304 .Backtick)
    (.toks [.LCurly] (.tok 305 .LCurly) (.toks [.Pipe] (.tok 306 .Pipe) (.toks [.RCurly] (.tok 307 .RCurly) (.toks [.Tilde] (.tok 308 .Tilde)
    (.toks [.U_01_08, .U_0B, .U_0C, .U_0E_1F, .Delete] (.call 309 .obsQtext) (.toks [.UTF8NonAscii] (.tok 310 .UTF8NonAscii)
    .nil)))))))))))))))))))))))))))))))))))

/-- `(*RFC5322Parser).QuotedContent` (/repo/parser/rfc5322_parser.go:3637-3683). -/
def code_quotedContent : Code :=
  (.switchLa 315 (.toks [.U_01_08, .U_0B, .U_0C, .U_0E_1F, .Exclamation, .Hash, .Dollar, .Percent, .Ampersand, .SQuote, .LParens, .RParens,
    .Asterisk, .Plus, .Comma, .Minus, .Period, .Slash, .Digit, .Colon, .Semicolon, .Less, .Equal, .Greater, .Question, .At, .LBracket, .RBracket,
    .Caret, .Underscore, .Backtick, .LCurly, .Pipe, .RCurly, .Tilde, .Delete, .UTF8NonAscii, .A, .B, .C, .D, .E, .F, .G, .H, .I, .J, .K, .L, .M,
    .N, .O, .P, .Q, .R, .S, .T, .U, .V, .W, .X, .Y, .Z] (.call 313 .qtext) (.toks [.Backslash] (.call 314 .quotedPair) .nil)))

/-- `(*RFC5322Parser).QuotedValue` (/repo/parser/rfc5322_parser.go:3825-3881). -/
def code_quotedValue : Code :=
  (.star 323 325 (.alt 24) (.seq (.ifLa 318 (.bits 0 [.TAB, .CR, .SP]) (.call 317 .fws)) (.call 320 .quotedContent)))

/-- `(*RFC5322Parser).QuotedString` (/repo/parser/rfc5322_parser.go:3981-4031). -/
def code_quotedString : Code :=
  (.seq (.tok 326 .DQuote) (.seq (.call 327 .quotedValue) (.seq (.ifLa 329 (.bits 0 [.TAB, .CR, .SP]) (.call 328 .fws)) (.tok 331 .DQuote))))

/-- `(*RFC5322Parser).Word` (/repo/parser/rfc5322_parser.go:4205-4336). -/
def code_word : Code :=
  (.switchAlt 358 33 (.alt 1 (.plus 340 342 (.alt 28) (.seq (.ifLa 334 (.bits 0 [.TAB, .CR, .SP, .LParens]) (.call 333 .cfws)) (.seq (.call 336
    .encodedWord) (.switchAlt 338 27 (.alt 1 (.call 337 .cfws) .nil))))) (.alt 2 (.seq (.ifLa 345 (.bits 0 [.TAB, .CR, .SP, .LParens]) (.call 344
    .cfws)) (.seq (.call 347 .atom) (.switchAlt 349 30 (.alt 1 (.call 348 .cfws) .nil)))) (.alt 3 (.seq (.ifLa 352 (.bits 0 [.TAB, .CR, .SP,
    .LParens]) (.call 351 .cfws)) (.seq (.call 354 .quotedString) (.switchAlt 356 32 (.alt 1 (.call 355 .cfws) .nil)))) .nil))))

/-- `(*RFC5322Parser).DateTime` (/repo/parser/rfc5322_parser.go:4556-4661). -/
def code_dateTime : Code :=
  (.seq (.switchAlt 363 34 (.alt 1 (.seq (.call 360 .dayOfweek) (.tok 361 .Comma)) .nil)) (.seq (.call 365 .day) (.seq (.call 366 .month) (.seq
    (.call 367 .year) (.seq (.call 368 .hour) (.seq (.tok 369 .Colon) (.seq (.call 370 .minute) (.seq (.ifLa 373 (.eq .Colon) (.seq (.tok 371
    .Colon) (.call 372 .second))) (.seq (.switchAlt 376 36 (.alt 1 (.call 375 .zone) .nil)) (.seq (.ifLa 379 (.bits 0 [.TAB, .CR, .SP, .LParens])
    (.call 378 .cfws)) (.eof 381)))))))))))

/-- `(*RFC5322Parser).DayOfweek` (/repo/parser/rfc5322_parser.go:4794-4871). -/
def code_dayOfweek : Code :=
  (.switchAlt 394 41 (.alt 1 (.seq (.ifLa 384 (.bits 0 [.TAB, .CR, .SP]) (.call 383 .fws)) (.call 386 .dayName)) (.alt 2 (.seq (.ifLa 388 (.bits 0
    [.TAB, .CR, .SP, .LParens]) (.call 387 .cfws)) (.seq (.call 390 .dayName) (.ifLa 392 (.bits 0 [.TAB, .CR, .SP, .LParens]) (.call 391 .cfws))))
    .nil)))

/-- `(*RFC5322Parser).DayName` (/repo/parser/rfc5322_parser.go:4987-5121). -/
def code_dayName : Code :=
  (.switchAlt 417 42 (.alt 1 (.seq (.tok 396 .M) (.seq (.tok 397 .O) (.tok 398 .N))) (.alt 2 (.seq (.tok 399 .T) (.seq (.tok 400 .U) (.tok 401
    .E))) (.alt 3 (.seq (.tok 402 .W) (.seq (.tok 403 .E) (.tok 404 .D))) (.alt 4 (.seq (.tok 405 .T) (.seq (.tok 406 .H) (.tok 407 .U))) (.alt 5
    (.seq (.tok 408 .F) (.seq (.tok 409 .R) (.tok 410 .I))) (.alt 6 (.seq (.tok 411 .S) (.seq (.tok 412 .A) (.tok 413 .T))) (.alt 7 (.seq (.tok 414
    .S) (.seq (.tok 415 .U) (.tok 416 .N))) .nil))))))))

/-- `(*RFC5322Parser).Day` (/repo/parser/rfc5322_parser.go:5271-5374). -/
def code_day : Code :=
  (.switchAlt 437 48 (.alt 1 (.seq (.ifLa 420 (.bits 0 [.TAB, .CR, .SP]) (.call 419 .fws)) (.seq (.tok 422 .Digit) (.seq (.ifLa 424 (.eq .Digit)
    (.tok 423 .Digit)) (.call 426 .fws)))) (.alt 2 (.seq (.ifLa 428 (.bits 0 [.TAB, .CR, .SP, .LParens]) (.call 427 .cfws)) (.seq (.tok 430 .Digit)
    (.seq (.ifLa 432 (.eq .Digit) (.tok 431 .Digit)) (.ifLa 435 (.bits 0 [.TAB, .CR, .SP, .LParens]) (.call 434 .cfws))))) .nil)))

/-- `(*RFC5322Parser).Month` (/repo/parser/rfc5322_parser.go:5510-5719). -/
def code_month : Code :=
  (.switchAlt 475 49 (.alt 1 (.seq (.tok 439 .J) (.seq (.tok 440 .A) (.tok 441 .N))) (.alt 2 (.seq (.tok 442 .F) (.seq (.tok 443 .E) (.tok 444
    .B))) (.alt 3 (.seq (.tok 445 .M) (.seq (.tok 446 .A) (.tok 447 .R))) (.alt 4 (.seq (.tok 448 .A) (.seq (.tok 449 .P) (.tok 450 .R))) (.alt 5
    (.seq (.tok 451 .M) (.seq (.tok 452 .A) (.tok 453 .Y))) (.alt 6 (.seq (.tok 454 .J) (.seq (.tok 455 .U) (.tok 456 .N))) (.alt 7 (.seq (.tok 457
    .J) (.seq (.tok 458 .U) (.tok 459 .L))) (.alt 8 (.seq (.tok 460 .A) (.seq (.tok 461 .U) (.tok 462 .G))) (.alt 9 (.seq (.tok 463 .S) (.seq (.tok
    464 .E) (.tok 465 .P))) (.alt 10 (.seq (.tok 466 .O) (.seq (.tok 467 .C) (.tok 468 .T))) (.alt 11 (.seq (.tok 469 .N) (.seq (.tok 470 .O) (.tok
    471 .V))) (.alt 12 (.seq (.tok 472 .D) (.seq (.tok 473 .E) (.tok 474 .C))) .nil)))))))))))))

/-- `(*RFC5322Parser).Year` (/repo/parser/rfc5322_parser.go:5869-5958). -/
def code_year : Code :=
  (.switchAlt 492 52 (.alt 1 (.seq (.call 477 .fws) (.seq (.tok 478 .Digit) (.seq (.tok 479 .Digit) (.seq (.tok 480 .Digit) (.seq (.tok 481 .Digit)
    (.call 482 .fws)))))) (.alt 2 (.seq (.ifLa 485 (.bits 0 [.TAB, .CR, .SP, .LParens]) (.call 484 .cfws)) (.seq (.tok 487 .Digit) (.seq (.tok 488
    .Digit) (.switchAlt 490 51 (.alt 1 (.call 489 .cfws) .nil))))) .nil)))

/-- `(*RFC5322Parser).Hour` (/repo/parser/rfc5322_parser.go:6067-6153). -/
def code_hour : Code :=
  (.switchAlt 508 57 (.alt 1 (.seq (.switchAlt 495 53 (.alt 1 (.tok 494 .Digit) .nil)) (.tok 497 .Digit)) (.alt 2 (.seq (.ifLa 499 (.bits 0 [.TAB,
    .CR, .SP, .LParens]) (.call 498 .cfws)) (.seq (.switchAlt 502 55 (.alt 1 (.tok 501 .Digit) .nil)) (.seq (.tok 504 .Digit) (.ifLa 506 (.bits 0
    [.TAB, .CR, .SP, .LParens]) (.call 505 .cfws))))) .nil)))

/-- `(*RFC5322Parser).Minute` (/repo/parser/rfc5322_parser.go:6262-6335). -/
def code_minute : Code :=
  (.switchAlt 520 60 (.alt 1 (.seq (.tok 510 .Digit) (.tok 511 .Digit)) (.alt 2 (.seq (.ifLa 513 (.bits 0 [.TAB, .CR, .SP, .LParens]) (.call 512
    .cfws)) (.seq (.tok 515 .Digit) (.seq (.tok 516 .Digit) (.switchAlt 518 59 (.alt 1 (.call 517 .cfws) .nil))))) .nil)))

/-- `(*RFC5322Parser).Second` (/repo/parser/rfc5322_parser.go:6444-6517). -/
def code_second : Code :=
  (.switchAlt 532 63 (.alt 1 (.seq (.tok 522 .Digit) (.tok 523 .Digit)) (.alt 2 (.seq (.ifLa 525 (.bits 0 [.TAB, .CR, .SP, .LParens]) (.call 524
    .cfws)) (.seq (.tok 527 .Digit) (.seq (.tok 528 .Digit) (.switchAlt 530 62 (.alt 1 (.call 529 .cfws) .nil))))) .nil)))

/-- `(*RFC5322Parser).Offset` (/repo/parser/rfc5322_parser.go:6593-6654). -/
def code_offset : Code :=
  (.seq (.ifLa 535 (.or (.eq .Plus) (.eq .Minus)) (.set 534 (.or (.eq .Plus) (.eq .Minus)))) (.seq (.tok 537 .Digit) (.seq (.tok 538 .Digit) (.seq
    (.tok 539 .Digit) (.tok 540 .Digit)))))

/-- `(*RFC5322Parser).Zone` (/repo/parser/rfc5322_parser.go:6762-6812). -/
def code_zone : Code :=
  (.switchLa 546 (.toks [.TAB, .CR, .SP] (.seq (.call 542 .fws) (.call 543 .offset)) (.toks [.C, .E, .G, .M, .P, .U] (.call 545 .obsZone) .nil)))

/-- `(*RFC5322Parser).Address` (/repo/parser/rfc5322_parser.go:6904-6947). -/
def code_address : Code :=
  (.switchAlt 550 66 (.alt 1 (.call 548 .mailbox) (.alt 2 (.call 549 .group) .nil)))

/-- `(*RFC5322Parser).Mailbox` (/repo/parser/rfc5322_parser.go:7039-7082). -/
def code_mailbox : Code :=
  (.switchAlt 554 67 (.alt 1 (.call 552 .nameAddr) (.alt 2 (.call 553 .addrSpec) .nil)))

/-- `(*RFC5322Parser).NameAddr` (/repo/parser/rfc5322_parser.go:7174-7214). -/
def code_nameAddr : Code :=
  (.seq (.switchAlt 557 68 (.alt 1 (.call 556 .displayName) .nil)) (.call 559 .angleAddr))

/-- `(*RFC5322Parser).AngleAddr` (/repo/parser/rfc5322_parser.go:7355-7435). -/
def code_angleAddr : Code :=
  (.switchAlt 573 72 (.alt 1 (.seq (.ifLa 562 (.bits 0 [.TAB, .CR, .SP, .LParens]) (.call 561 .cfws)) (.seq (.tok 564 .Less) (.seq (.ifLa 566 (.or
    (.bits 0 [.TAB, .CR, .SP, .Exclamation, .DQuote, .Hash, .Dollar, .Percent, .Ampersand, .SQuote, .LParens, .Asterisk, .Plus, .Minus, .Slash,
    .Digit, .Equal, .Question]) (.or (.bits 36 [.Caret, .Underscore, .Backtick, .LCurly, .Pipe, .RCurly, .Tilde, .UTF8NonAscii, .A, .B, .C, .D, .E,
    .F, .G, .H, .I, .J, .K, .L, .M, .N, .O, .P, .Q, .R, .S, .T, .U, .V, .W]) (.bits 68 [.X, .Y, .Z]))) (.call 565 .addrSpec)) (.seq (.tok 568
    .Greater) (.switchAlt 570 71 (.alt 1 (.call 569 .cfws) .nil)))))) (.alt 2 (.call 572 .obsAngleAddr) .nil)))

/-- `(*RFC5322Parser).Group` (/repo/parser/rfc5322_parser.go:7559-7646). -/
def code_group : Code :=
  (.seq (.switchAlt 576 73 (.alt 1 (.tok 575 .DQuote) .nil)) (.seq (.call 578 .displayName) (.seq (.tok 579 .Colon) (.seq (.switchAlt 581 74 (.alt
    1 (.call 580 .groupList) .nil)) (.seq (.ifLa 584 (.eq .DQuote) (.tok 583 .DQuote)) (.seq (.switchAlt 587 76 (.alt 1 (.tok 586 .Semicolon)
    .nil)) (.ifLa 590 (.bits 0 [.TAB, .CR, .SP, .LParens]) (.call 589 .cfws))))))))

/-- `(*RFC5322Parser).Unspaced` (/repo/parser/rfc5322_parser.go:7714-7752). -/
def code_unspaced : Code :=
  (.set 592 (.or (.eq .Period) (.eq .At)))

/-- `(*RFC5322Parser).DisplayName` (/repo/parser/rfc5322_parser.go:7935-8029). -/
def code_displayName : Code :=
  (.switchAlt 608 81 (.alt 1 (.plus 595 597 (.alt 78) (.call 594 .word)) (.alt 2 (.seq (.call 599 .word) (.star 605 607 (.alt 80) (.switchAlt 603
    79 (.alt 1 (.call 600 .word) (.alt 2 (.call 601 .unspaced) (.alt 3 (.call 602 .cfws) .nil)))))) .nil)))

/-- `(*RFC5322Parser).MailboxList` (/repo/parser/rfc5322_parser.go:8154-8219). -/
def code_mailboxList : Code :=
  (.switchAlt 619 83 (.alt 1 (.seq (.call 610 .mailbox) (.star 615 617 (.alt 82) (.seq (.tok 611 .Comma) (.call 612 .mailbox)))) (.alt 2 (.call 618
    .obsMboxList) .nil)))

/-- `(*RFC5322Parser).AddressList` (/repo/parser/rfc5322_parser.go:8356-8433). -/
def code_addressList : Code :=
  (.switchAlt 634 85 (.alt 1 (.seq (.call 621 .address) (.seq (.star 626 628 (.la (.or (.eq .Comma) (.eq .Semicolon))) (.seq (.set 622 (.or (.eq
    .Comma) (.eq .Semicolon))) (.call 623 .address))) (.eof 629))) (.alt 2 (.seq (.call 631 .obsAddrList) (.eof 632)) .nil)))

/-- `(*RFC5322Parser).GroupList` (/repo/parser/rfc5322_parser.go:8541-8591). -/
def code_groupList : Code :=
  (.switchAlt 639 86 (.alt 1 (.call 636 .mailboxList) (.alt 2 (.call 637 .cfws) (.alt 3 (.call 638 .obsGroupList) .nil))))

/-- `(*RFC5322Parser).AddrSpec` (/repo/parser/rfc5322_parser.go:8707-8761). -/
def code_addrSpec : Code :=
  (.seq (.call 641 .localPart) (.seq (.tok 642 .At) (.seq (.call 643 .domain) (.ifLa 646 (.eq .Colon) (.seq (.tok 644 .Colon) (.call 645
    .port))))))

/-- `(*RFC5322Parser).LocalPart` (/repo/parser/rfc5322_parser.go:8910-9005). -/
def code_localPart : Code :=
  (.switchAlt 663 92 (.alt 1 (.seq (.ifLa 649 (.bits 0 [.TAB, .CR, .SP, .LParens]) (.call 648 .cfws)) (.seq (.call 651 .dotAtom) (.ifLa 653 (.bits
    0 [.TAB, .CR, .SP, .LParens]) (.call 652 .cfws)))) (.alt 2 (.seq (.ifLa 656 (.bits 0 [.TAB, .CR, .SP, .LParens]) (.call 655 .cfws)) (.seq
    (.call 658 .quotedString) (.ifLa 660 (.bits 0 [.TAB, .CR, .SP, .LParens]) (.call 659 .cfws)))) (.alt 3 (.call 662 .obsLocalPart) .nil))))

/-- `(*RFC5322Parser).Port` (/repo/parser/rfc5322_parser.go:9073-9114). -/
def code_port : Code :=
  (.plus 666 668 (.la (.eq .Digit)) (.tok 665 .Digit))

/-- `(*RFC5322Parser).Domain` (/repo/parser/rfc5322_parser.go:9263-9377). -/
def code_domain : Code :=
  (.switchAlt 691 100 (.alt 1 (.seq (.ifLa 671 (.bits 0 [.TAB, .CR, .SP, .LParens]) (.call 670 .cfws)) (.seq (.call 673 .dotAtom) (.switchAlt 675
    95 (.alt 1 (.call 674 .cfws) .nil)))) (.alt 2 (.seq (.ifLa 678 (.bits 0 [.TAB, .CR, .SP, .LParens]) (.call 677 .cfws)) (.seq (.call 680
    .domainLiteral) (.switchAlt 682 97 (.alt 1 (.call 681 .cfws) .nil)))) (.alt 3 (.seq (.ifLa 685 (.bits 0 [.TAB, .CR, .SP, .LParens]) (.call 684
    .cfws)) (.seq (.call 687 .obsDomain) (.switchAlt 689 99 (.alt 1 (.call 688 .cfws) .nil)))) .nil))))

/-- `(*RFC5322Parser).DomainLiteral` (/repo/parser/rfc5322_parser.go:9527-9602). -/
def code_domainLiteral : Code :=
  (.seq (.tok 693 .LBracket) (.seq (.star 700 702 (.alt 102) (.seq (.ifLa 695 (.bits 0 [.TAB, .CR, .SP]) (.call 694 .fws)) (.call 697 .dtext)))
    (.seq (.ifLa 704 (.bits 0 [.TAB, .CR, .SP]) (.call 703 .fws)) (.tok 706 .RBracket))))

/-- `(*RFC5322Parser).Dtext` (/repo/parser/rfc5322_parser.go:9802-10058). -/
def code_dtext : Code :=
  (.switchLa 740 (.toks [.A, .B, .C, .D, .E, .F, .G, .H, .I, .J, .K, .L, .M, .N, .O, .P, .Q, .R, .S, .T, .U, .V, .W, .X, .Y, .Z] (.call 708 .alpha)
    (.toks [.Exclamation] (.tok 709 .Exclamation) (.toks [.DQuote] (.tok 710 .DQuote) (.toks [.Hash] (.tok 711 .Hash) (.toks [.Dollar] (.tok 712
    .Dollar) (.toks [.Percent] (.tok 713 .Percent) (.toks [.Ampersand] (.tok 714 .Ampersand) (.toks [.SQuote] (.tok 715 .SQuote) (.toks [.LParens]
    (.tok 716 .LParens) (.toks [.RParens] (.tok 717 .RParens) (.toks [.Asterisk] (.tok 718 .Asterisk) (.toks [.Plus] (.tok 719 .Plus) (.toks
    [.Comma] (.tok 720 .Comma) (.toks [.Minus] (.tok 721 .Minus) (.toks [.Period] (.tok 722 .Period) (.toks [.Slash] (.tok 723 .Slash) (.toks
    [.Digit] (.tok 724 .Digit) (.toks [.Colon] (.tok 725 .Colon) (.toks [.Semicolon] (.tok 726 .Semicolon) (.toks [.Less] (.tok 727 .Less) (.toks
    [.Equal] (.tok 728 .Equal) (.toks [.Greater] (.tok 729 .Greater) (.toks [.Question] (.tok 730 .Question) (.toks [.At] (.tok 731 .At) (.toks
    [.Caret] (.tok 732 .Caret) (.toks [.Underscore] (.tok 733 .Underscore) (.toks [.Backtick] (.tok 734 .Backtick) (.toks [.LCurly] (.tok 735
    .LCurly) (.toks [.Pipe] (.tok 736 .Pipe) (.toks [.RCurly] (.tok 737 .RCurly) (.toks [.Tilde] (.tok 738 .Tilde) (.toks [.UTF8NonAscii] (.tok 739
    .UTF8NonAscii) .nil)))))))))))))))))))))))))))))))))

/-- `(*RFC5322Parser).ObsNoWSCTL` (/repo/parser/rfc5322_parser.go:10138-10176). -/
def code_obsNoWSCTL : Code :=
  (.set 742 (.or (.bits 0 [.U_01_08, .U_0B, .U_0C, .U_0E_1F]) (.eq .Delete)))

/-- `(*RFC5322Parser).ObsCtext` (/repo/parser/rfc5322_parser.go:10252-10282). -/
def code_obsCtext : Code :=
  (.call 744 .obsNoWSCTL)

/-- `(*RFC5322Parser).ObsQtext` (/repo/parser/rfc5322_parser.go:10358-10388). -/
def code_obsQtext : Code :=
  (.call 746 .obsNoWSCTL)

/-- `(*RFC5322Parser).ObsQP` (/repo/parser/rfc5322_parser.go:10480-10541). -/
def code_obsQP : Code :=
  (.seq (.tok 748 .Backslash) (.switchLa 753 (.toks [.U_00] (.tok 749 .U_00) (.toks [.U_01_08, .U_0B, .U_0C, .U_0E_1F, .Delete] (.call 750
    .obsNoWSCTL) (.toks [.LF] (.tok 751 .LF) (.toks [.CR] (.tok 752 .CR) .nil))))))

/-- `(*RFC5322Parser).ObsFWS` (/repo/parser/rfc5322_parser.go:10658-10725). -/
def code_obsFWS : Code :=
  (.seq (.plus 756 758 (.la (.or (.eq .TAB) (.eq .SP))) (.call 755 .wsp)) (.seq (.call 760 .crlf) (.plus 762 764 (.alt 107) (.call 761 .wsp))))

/-- `(*RFC5322Parser).ObsZone` (/repo/parser/rfc5322_parser.go:10821-11011). -/
def code_obsZone : Code :=
  (.switchAlt 798 108 (.alt 1 (.seq (.tok 766 .U) (.tok 767 .T)) (.alt 2 (.seq (.tok 768 .U) (.seq (.tok 769 .T) (.tok 770 .C))) (.alt 3 (.seq
    (.tok 771 .G) (.seq (.tok 772 .M) (.tok 773 .T))) (.alt 4 (.seq (.tok 774 .E) (.seq (.tok 775 .S) (.tok 776 .T))) (.alt 5 (.seq (.tok 777 .E)
    (.seq (.tok 778 .D) (.tok 779 .T))) (.alt 6 (.seq (.tok 780 .C) (.seq (.tok 781 .S) (.tok 782 .T))) (.alt 7 (.seq (.tok 783 .C) (.seq (.tok 784
    .D) (.tok 785 .T))) (.alt 8 (.seq (.tok 786 .M) (.seq (.tok 787 .S) (.tok 788 .T))) (.alt 9 (.seq (.tok 789 .M) (.seq (.tok 790 .D) (.tok 791
    .T))) (.alt 10 (.seq (.tok 792 .P) (.seq (.tok 793 .S) (.tok 794 .T))) (.alt 11 (.seq (.tok 795 .P) (.seq (.tok 796 .D) (.tok 797 .T)))
    .nil))))))))))))

/-- `(*RFC5322Parser).ObsAngleAddr` (/repo/parser/rfc5322_parser.go:11152-11216). -/
def code_obsAngleAddr : Code :=
  (.seq (.ifLa 801 (.bits 0 [.TAB, .CR, .SP, .LParens]) (.call 800 .cfws)) (.seq (.tok 803 .Less) (.seq (.call 804 .obsRoute) (.seq (.call 805
    .addrSpec) (.seq (.tok 806 .Greater) (.switchAlt 808 110 (.alt 1 (.call 807 .cfws) .nil)))))))

/-- `(*RFC5322Parser).ObsRoute` (/repo/parser/rfc5322_parser.go:11296-11330). -/
def code_obsRoute : Code :=
  (.seq (.call 810 .obsDomainList) (.tok 811 .Colon))

/-- `(*RFC5322Parser).ObsDomainList` (/repo/parser/rfc5322_parser.go:11488-11592). -/
def code_obsDomainList : Code :=
  (.seq (.star 817 819 (.la (.bits 0 [.TAB, .CR, .SP, .LParens, .Comma])) (.switchLa 815 (.toks [.TAB, .CR, .SP, .LParens] (.call 813 .cfws) (.toks
    [.Comma] (.tok 814 .Comma) .nil)))) (.seq (.tok 820 .At) (.seq (.call 821 .domain) (.star 832 834 (.la (.eq .Comma)) (.seq (.tok 822 .Comma)
    (.seq (.ifLa 824 (.bits 0 [.TAB, .CR, .SP, .LParens]) (.call 823 .cfws)) (.ifLa 828 (.eq .At) (.seq (.tok 826 .At) (.call 827 .domain)))))))))

/-- `(*RFC5322Parser).ObsMboxList` (/repo/parser/rfc5322_parser.go:11742-11834). -/
def code_obsMboxList : Code :=
  (.seq (.star 841 843 (.alt 117) (.seq (.ifLa 836 (.bits 0 [.TAB, .CR, .SP, .LParens]) (.call 835 .cfws)) (.tok 838 .Comma))) (.seq (.call 844
    .mailbox) (.star 852 854 (.alt 119) (.seq (.tok 845 .Comma) (.switchAlt 848 118 (.alt 1 (.call 846 .mailbox) (.alt 2 (.call 847 .cfws)
    .nil)))))))

/-- `(*RFC5322Parser).ObsAddrList` (/repo/parser/rfc5322_parser.go:11984-12074). -/
def code_obsAddrList : Code :=
  (.seq (.star 861 863 (.alt 121) (.seq (.ifLa 856 (.bits 0 [.TAB, .CR, .SP, .LParens]) (.call 855 .cfws)) (.tok 858 .Comma))) (.seq (.call 864
    .address) (.star 872 874 (.la (.eq .Comma)) (.seq (.tok 865 .Comma) (.switchAlt 868 122 (.alt 1 (.call 866 .address) (.alt 2 (.call 867 .cfws)
    .nil)))))))

/-- `(*RFC5322Parser).ObsGroupList` (/repo/parser/rfc5322_parser.go:12183-12252). -/
def code_obsGroupList : Code :=
  (.seq (.plus 879 881 (.alt 125) (.seq (.ifLa 876 (.bits 0 [.TAB, .CR, .SP, .LParens]) (.call 875 .cfws)) (.tok 878 .Comma))) (.switchAlt 884 126
    (.alt 1 (.call 883 .cfws) .nil)))

/-- `(*RFC5322Parser).ObsLocalPart` (/repo/parser/rfc5322_parser.go:12361-12410). -/
def code_obsLocalPart : Code :=
  (.seq (.call 886 .word) (.star 891 893 (.la (.eq .Period)) (.seq (.tok 887 .Period) (.call 888 .word))))

/-- `(*RFC5322Parser).ObsDomain` (/repo/parser/rfc5322_parser.go:12519-12568). -/
def code_obsDomain : Code :=
  (.seq (.call 894 .atom) (.star 899 901 (.la (.eq .Period)) (.seq (.tok 895 .Period) (.call 896 .atom))))

/-- `(*RFC5322Parser).EncodedWord` (/repo/parser/rfc5322_parser.go:12692-12754). -/
def code_encodedWord : Code :=
  (.seq (.tok 902 .Equal) (.seq (.tok 903 .Question) (.seq (.call 904 .charset) (.seq (.tok 905 .Question) (.seq (.call 906 .encoding) (.seq (.tok
    907 .Question) (.seq (.call 908 .encodedText) (.seq (.tok 909 .Question) (.tok 910 .Equal)))))))))

/-- `(*RFC5322Parser).Charset` (/repo/parser/rfc5322_parser.go:12830-12860). -/
def code_charset : Code :=
  (.call 912 .token)

/-- `(*RFC5322Parser).Encoding` (/repo/parser/rfc5322_parser.go:12936-12966). -/
def code_encoding : Code :=
  (.call 914 .token)

/-- `(*RFC5322Parser).Token` (/repo/parser/rfc5322_parser.go:13067-13108). -/
def code_token : Code :=
  (.plus 917 919 (.la (.or (.bits 10 [.Exclamation, .Hash, .Dollar, .Percent, .Ampersand, .SQuote, .Asterisk, .Plus, .Minus, .Digit, .Backslash,
    .Caret, .Underscore, .Backtick, .LCurly, .Pipe, .RCurly]) (.bits 42 [.Tilde, .A, .B, .C, .D, .E, .F, .G, .H, .I, .J, .K, .L, .M, .N, .O, .P,
    .Q, .R, .S, .T, .U, .V, .W, .X, .Y, .Z]))) (.call 916 .tokenChar))

/-- `(*RFC5322Parser).TokenChar` (/repo/parser/rfc5322_parser.go:13256-13421). -/
def code_tokenChar : Code :=
  (.switchLa 940 (.toks [.A, .B, .C, .D, .E, .F, .G, .H, .I, .J, .K, .L, .M, .N, .O, .P, .Q, .R, .S, .T, .U, .V, .W, .X, .Y, .Z] (.call 921 .alpha)
    (.toks [.Exclamation] (.tok 922 .Exclamation) (.toks [.Hash] (.tok 923 .Hash) (.toks [.Dollar] (.tok 924 .Dollar) (.toks [.Percent] (.tok 925
    .Percent) (.toks [.Ampersand] (.tok 926 .Ampersand) (.toks [.SQuote] (.tok 927 .SQuote) (.toks [.Asterisk] (.tok 928 .Asterisk) (.toks [.Plus]
    (.tok 929 .Plus) (.toks [.Minus] (.tok 930 .Minus) (.toks [.Digit] (.tok 931 .Digit) (.toks [.Backslash] (.tok 932 .Backslash) (.toks [.Caret]
    (.tok 933 .Caret) (.toks [.Underscore] (.tok 934 .Underscore) (.toks [.Backtick] (.tok 935 .Backtick) (.toks [.LCurly] (.tok 936 .LCurly)
    (.toks [.Pipe] (.tok 937 .Pipe) (.toks [.RCurly] (.tok 938 .RCurly) (.toks [.Tilde] (.tok 939 .Tilde) .nil))))))))))))))))))))

/-- `(*RFC5322Parser).EncodedText` (/repo/parser/rfc5322_parser.go:13522-13563). -/
def code_encodedText : Code :=
  (.plus 943 945 (.la (.or (.bits 10 [.Exclamation, .DQuote, .Hash, .Dollar, .Percent, .Ampersand, .SQuote, .LParens, .RParens, .Asterisk, .Plus,
    .Comma, .Minus, .Period, .Slash, .Digit, .Colon, .Semicolon, .Less, .Equal, .Greater, .At, .LBracket, .Backslash, .RBracket, .Caret,
    .Underscore, .Backtick, .LCurly, .Pipe, .RCurly]) (.bits 42 [.Tilde, .A, .B, .C, .D, .E, .F, .G, .H, .I, .J, .K, .L, .M, .N, .O, .P, .Q, .R,
    .S, .T, .U, .V, .W, .X, .Y, .Z]))) (.call 942 .encodedChar))

/-- `(*RFC5322Parser).EncodedChar` (/repo/parser/rfc5322_parser.go:13767-14030). -/
def code_encodedChar : Code :=
  (.switchLa 980 (.toks [.A, .B, .C, .D, .E, .F, .G, .H, .I, .J, .K, .L, .M, .N, .O, .P, .Q, .R, .S, .T, .U, .V, .W, .X, .Y, .Z] (.call 947 .alpha)
    (.toks [.Exclamation] (.tok 948 .Exclamation) (.toks [.DQuote] (.tok 949 .DQuote) (.toks [.Hash] (.tok 950 .Hash) (.toks [.Dollar] (.tok 951
    .Dollar) (.toks [.Percent] (.tok 952 .Percent) (.toks [.Ampersand] (.tok 953 .Ampersand) (.toks [.SQuote] (.tok 954 .SQuote) (.toks [.LParens]
    (.tok 955 .LParens) (.toks [.RParens] (.tok 956 .RParens) (.toks [.Asterisk] (.tok 957 .Asterisk) (.toks [.Plus] (.tok 958 .Plus) (.toks
    [.Comma] (.tok 959 .Comma) (.toks [.Minus] (.tok 960 .Minus) (.toks [.Period] (.tok 961 .Period) (.toks [.Slash] (.tok 962 .Slash) (.toks
    [.Digit] (.tok 963 .Digit) (.toks [.Colon] (.tok 964 .Colon) (.toks [.Semicolon] (.tok 965 .Semicolon) (.toks [.Less] (.tok 966 .Less) (.toks
    [.Equal] (.tok 967 .Equal) (.toks [.Greater] (.tok 968 .Greater) (.toks [.At] (.tok 969 .At) (.toks [.LBracket] (.tok 970 .LBracket) (.toks
    [.Backslash] (.tok 971 .Backslash) (.toks [.RBracket] (.tok 972 .RBracket) (.toks [.Caret] (.tok 973 .Caret) (.toks [.Underscore] (.tok 974
    .Underscore) (.toks [.Backtick] (.tok 975 .Backtick) (.toks [.LCurly] (.tok 976 .LCurly) (.toks [.Pipe] (.tok 977 .Pipe) (.toks [.RCurly] (.tok
    978 .RCurly) (.toks [.Tilde] (.tok 979 .Tilde) .nil))))))))))))))))))))))))))))))))))

/-- `(*RFC5322Parser).Crlf` (/repo/parser/rfc5322_parser.go:14098-14132). -/
def code_crlf : Code :=
  (.seq (.tok 982 .CR) (.tok 983 .LF))

/-- `(*RFC5322Parser).Wsp` (/repo/parser/rfc5322_parser.go:14200-14238). -/
def code_wsp : Code :=
  (.set 985 (.or (.eq .TAB) (.eq .SP)))

/-- `(*RFC5322Parser).Vchar` (/repo/parser/rfc5322_parser.go:14450-14727). -/
def code_vchar : Code :=
  (.switchLa 1022 (.toks [.A, .B, .C, .D, .E, .F, .G, .H, .I, .J, .K, .L, .M, .N, .O, .P, .Q, .R, .S, .T, .U, .V, .W, .X, .Y, .Z] (.call 987
    .alpha) (.toks [.Exclamation] (.tok 988 .Exclamation) (.toks [.DQuote] (.tok 989 .DQuote) (.toks [.Hash] (.tok 990 .Hash) (.toks [.Dollar]
    (.tok 991 .Dollar) (.toks [.Percent] (.tok 992 .Percent) (.toks [.Ampersand] (.tok 993 .Ampersand) (.toks [.SQuote] (.tok 994 .SQuote) (.toks
    [.LParens] (.tok 995 .LParens) (.toks [.RParens] (.tok 996 .RParens) (.toks [.Asterisk] (.tok 997 .Asterisk) (.toks [.Plus] (.tok 998 .Plus)
    (.toks [.Comma] (.tok 999 .Comma) (.toks [.Minus] (.tok 1000 .Minus) (.toks [.Period] (.tok 1001 .Period) (.toks [.Slash] (.tok 1002 .Slash)
    (.toks [.Digit] (.tok 1003 .Digit) (.toks [.Colon] (.tok 1004 .Colon) (.toks [.Semicolon] (.tok 1005 .Semicolon) (.toks [.Less] (.tok 1006
    .Less) (.toks [.Equal] (.tok 1007 .Equal) (.toks [.Greater] (.tok 1008 .Greater) (.toks [.Question] (.tok 1009 .Question) (.toks [.At] (.tok
    1010 .At) (.toks [.LBracket] (.tok 1011 .LBracket) (.toks [.Backslash] (.tok 1012 .Backslash) (.toks [.RBracket] (.tok 1013 .RBracket) (.toks
    [.Caret] (.tok 1014 .Caret) (.toks [.Underscore] (.tok 1015 .Underscore) (.toks [.Backtick] (.tok 1016 .Backtick) (.toks [.LCurly] (.tok 1017
    .LCurly) (.toks [.Pipe] (.tok 1018 .Pipe) (.toks [.RCurly] (.tok 1019 .RCurly) (.toks [.Tilde] (.tok 1020 .Tilde) (.toks [.UTF8NonAscii] (.tok
    1021 .UTF8NonAscii) .nil))))))))))))))))))))))))))))))))))))

/-- `(*RFC5322Parser).Alpha` (/repo/parser/rfc5322_parser.go:14891-14929). -/
def code_alpha : Code :=
  (.set 1024 (.bits 45 [.A, .B, .C, .D, .E, .F, .G, .H, .I, .J, .K, .L, .M, .N, .O, .P, .Q, .R, .S, .T, .U, .V, .W, .X, .Y, .Z]))

/-- The body of the function of a rule. -/
def code : Rule → Code
  | .quotedChar => code_quotedChar
  | .quotedPair => code_quotedPair
  | .fws => code_fws
  | .ctext => code_ctext
  | .ccontent => code_ccontent
  | .comment => code_comment
  | .cfws => code_cfws
  | .atext => code_atext
  | .atom => code_atom
  | .dotAtom => code_dotAtom
  | .qtext => code_qtext
  | .quotedContent => code_quotedContent
  | .quotedValue => code_quotedValue
  | .quotedString => code_quotedString
  | .word => code_word
  | .dateTime => code_dateTime
  | .dayOfweek => code_dayOfweek
  | .dayName => code_dayName
  | .day => code_day
  | .month => code_month
  | .year => code_year
  | .hour => code_hour
  | .minute => code_minute
  | .second => code_second
  | .offset => code_offset
  | .zone => code_zone
  | .address => code_address
  | .mailbox => code_mailbox
  | .nameAddr => code_nameAddr
  | .angleAddr => code_angleAddr
  | .group => code_group
  | .unspaced => code_unspaced
  | .displayName => code_displayName
  | .mailboxList => code_mailboxList
  | .addressList => code_addressList
  | .groupList => code_groupList
  | .addrSpec => code_addrSpec
  | .localPart => code_localPart
  | .port => code_port
  | .domain => code_domain
  | .domainLiteral => code_domainLiteral
  | .dtext => code_dtext
  | .obsNoWSCTL => code_obsNoWSCTL
  | .obsCtext => code_obsCtext
  | .obsQtext => code_obsQtext
  | .obsQP => code_obsQP
  | .obsFWS => code_obsFWS
  | .obsZone => code_obsZone
  | .obsAngleAddr => code_obsAngleAddr
  | .obsRoute => code_obsRoute
  | .obsDomainList => code_obsDomainList
  | .obsMboxList => code_obsMboxList
  | .obsAddrList => code_obsAddrList
  | .obsGroupList => code_obsGroupList
  | .obsLocalPart => code_obsLocalPart
  | .obsDomain => code_obsDomain
  | .encodedWord => code_encodedWord
  | .charset => code_charset
  | .encoding => code_encoding
  | .token => code_token
  | .tokenChar => code_tokenChar
  | .encodedText => code_encodedText
  | .encodedChar => code_encodedChar
  | .crlf => code_crlf
  | .wsp => code_wsp
  | .vchar => code_vchar
  | .alpha => code_alpha

end Rfc5322.Gen
