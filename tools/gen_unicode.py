#!/usr/bin/env python3
"""Generate lean/Verif/Go/UnicodeTables.lean from Python's unicodedata.

The script tables are written down here because unicodedata has no script property.
"""
import os
import unicodedata as u

N = 0x110000


def ranges(pred):
    out, lo = [], None
    for c in range(N + 1):
        p = c < N and pred(c)
        if p and lo is None:
            lo = c
        if not p and lo is not None:
            out.append((lo, c - 1))
            lo = None
    return out


def cat(prefix):
    return ranges(lambda c: u.category(chr(c)).startswith(prefix))


SCRIPTS = {
    'latin': '0041-005A 0061-007A 00AA 00BA 00C0-00D6 00D8-00F6 00F8-02B8 02E0-02E4 1D00-1D25 1D2C-1D5C '
             '1D62-1D65 1D6B-1D77 1D79-1DBE 1E00-1EFF 2071 207F 2090-209C 212A-212B 2132 214E 2160-2188 '
             '2C60-2C7F A722-A787 A78B-A7BF A7C2-A7CA A7F5-A7FF AB30-AB5A AB5C-AB64 AB66-AB69 FB00-FB06 '
             'FF21-FF3A FF41-FF5A',
    'cyrillic': '0400-0484 0487-052F 1C80-1C88 1D2B 1D78 2DE0-2DFF A640-A69F FE2E-FE2F',
    'greek': '0370-0373 0375-0377 037A-037D 037F 0384 0386 0388-038A 038C 038E-03A1 03A3-03E1 03F0-03FF '
             '1D26-1D2A 1D5D-1D61 1D66-1D6A 1DBF 1F00-1F15 1F18-1F1D 1F20-1F45 1F48-1F4D 1F50-1F57 1F59 '
             '1F5B 1F5D 1F5F-1F7D 1F80-1FB4 1FB6-1FC4 1FC6-1FD3 1FD6-1FDB 1FDD-1FEF 1FF2-1FF4 1FF6-1FFE '
             '2126 AB65 10140-1018E 101A0 1D200-1D245',
    'georgian': '10A0-10C5 10C7 10CD 10D0-10FA 10FC-10FF 1C90-1CBA 1CBD-1CBF 2D00-2D25 2D27 2D2D',
    'hiragana': '3041-3096 309D-309F 1B001-1B11E 1B150-1B152 1F200',
    'katakana': '30A1-30FA 30FD-30FF 31F0-31FF 32D0-32FE 3300-3357 FF66-FF6F FF71-FF9D 1B000 1B164-1B167',
}


def script(s):
    out = []
    for part in s.split():
        a, _, b = part.partition('-')
        out.append((int(a, 16), int(b or a, 16)))
    return out


def fold(items, key):
    """Runs of consecutive code points with equal key: (lo, hi, value)."""
    out = []
    for c, v in items:
        if out and out[-1][1] == c - 1 and out[-1][2] == key(c, v):
            out[-1][1] = c
        else:
            out.append([c, c, key(c, v)])
    return out


def lower(c):
    s = chr(c).lower()
    if c == 0x130:
        return 0x69
    return ord(s) if len(s) == 1 else c


def emit(name, doc, rows, typ):
    body = ', '.join('(' + ', '.join('0x%X' % x for x in r) + ')' for r in rows)
    lines, cur = [], '  ['
    for tok in body.split(' '):
        if len(cur) + len(tok) + 1 > 108:
            lines.append(cur.rstrip())
            cur = '   '
        cur += tok + ' '
    lines.append(cur.rstrip() + ']')
    return '/-- %s -/\ndef %s : List %s :=\n%s\n\n' % (doc, name, typ, '\n'.join(lines))


def main():
    out = '''/-!
# Unicode tables (generated by tools/gen_unicode.py, Unicode %s)

Go's package `unicode` uses the same data, of the version shipped with the Go release.
-/

namespace Verif.Unicode

''' % u.unidata_version
    out += emit('letterTable', 'Category L (`unicode.IsLetter`).', cat('L'), '(Nat × Nat)')
    out += emit('digitTable', 'Category Nd (`unicode.IsDigit`).', cat('Nd'), '(Nat × Nat)')
    out += emit('punctTable', 'Category P (`unicode.IsPunct`).', cat('P'), '(Nat × Nat)')
    out += emit('markTable', 'Category M (`unicode.IsMark`).', cat('M'), '(Nat × Nat)')
    for n, s in SCRIPTS.items():
        out += emit(n + 'Table', '`unicode.%s`.' % n.capitalize(), script(s), '(Nat × Nat)')
    up = [(c, lower(c)) for c in range(N) if lower(c) != c]
    # Runs with a constant distance; alternating pairs become single-element runs merged by parity.
    rows = []
    for c, l in up:
        d = (l - c) % (1 << 32)
        if rows and rows[-1][3] == d and rows[-1][2] in (1, 0) and rows[-1][1] == c - 1:
            rows[-1][1] = c
            rows[-1][2] = 1
        elif rows and rows[-1][3] == d and rows[-1][2] in (2, 0) and rows[-1][1] == c - 2:
            rows[-1][1] = c
            rows[-1][2] = 2
        else:
            rows.append([c, c, 0, d])
    rows = [(lo, hi, st or 1, lower(lo)) for lo, hi, st, d in rows]
    out += emit('lowerTable',
                '`unicode.ToLower`: `(lo, hi, stride, image of lo)`.', rows, '(Nat × Nat × Nat × Nat)')
    lat = script(SCRIPTS['latin'])
    dec = []
    for lo, hi in lat:
        for c in range(lo, hi + 1):
            d = u.normalize('NFD', chr(c))
            if d != chr(c):
                dec.append((c, d.encode()[0]))
    out += emit('latinDecompTable',
                'The first byte of the canonical decomposition of the Latin letters that have one: '
                '`(lo, hi, byte)`.', fold(dec, lambda c, v: v), '(Nat × Nat × Nat)')
    out += 'end Verif.Unicode\n'
    path = os.path.join(os.path.dirname(__file__), '..', 'lean', 'Verif', 'Go', 'UnicodeTables.lean')
    open(path, 'w').write(out)


main()
