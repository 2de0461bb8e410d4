#!/usr/bin/env python3
"""Print lean/Verif/Unicode.lean: the character classes of Python's `re` beyond ASCII, from Python's own Unicode database."""
import sys, unicodedata


def ranges(f):
    out, start = [], None
    for c in range(128, 0x110000):
        ok = not 0xD800 <= c <= 0xDFFF and f(chr(c))
        if ok and start is None:
            start = c
        if not ok and start is not None:
            out.append((start, c - 1))
            start = None
    return out


def lines(items, width=130):
    line, out = "  ", []
    for i, x in enumerate(items):
        s = x + (", " if i + 1 < len(items) else "]")
        if len(line) + len(s) > width:
            out.append(line.rstrip())
            line = "   "
        line += s
    out.append(line)
    return "\n".join(out)


digits = []
for a, b in ranges(str.isdecimal):
    assert (b - a + 1) % 10 == 0
    for s in range(a, b, 10):
        assert [int(chr(s + i)) for i in range(10)] == list(range(10))
        digits.append(s)
spaces = ranges(str.isspace)
words = ranges(str.isalnum)
print(f"""/-!
# Character classes beyond ASCII

Python's `re` matches `\\d`, `\\s` and `\\w` in a `str` by `str.isdecimal`, `str.isspace` and `str.isalnum` (or `_`), and `int` accepts
every decimal digit.  The tables are those of Unicode {unicodedata.unidata_version} (CPython {sys.version_info[0]}.{sys.version_info[1]}), written by
`tools/unicode_tables.py`.  (A lone surrogate, which a Python `str` can hold, is no `Char`; it belongs to none of the classes.)
-/

namespace PyDice

/-- Code points of the zeros; each is followed by the digits 1 to 9. -/
def uniZeros : List Nat :=
{lines(['[' + hex(digits[0])] + [hex(d) for d in digits[1:]])}

/-- First and last code points of the white space. -/
def uniSpaces : List (Nat × Nat) :=
{lines([('[' if i == 0 else '') + '(%s, %s)' % (hex(a), hex(b)) for i, (a, b) in enumerate(spaces)])}

/-- First and last code points of the letters and numbers. -/
def uniWords : List (Nat × Nat) :=
{lines([('[' if i == 0 else '') + '(%s, %s)' % (hex(a), hex(b)) for i, (a, b) in enumerate(words)])}

end PyDice""")
