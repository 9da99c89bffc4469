#!/usr/bin/env python3
"""Turns the unit tests of /repo into `#guard`s on the Lean model (lean/Verif/Conformance.lean).

`#guard` evaluates the model; it proves nothing.  This only checks that the model agrees with the
expected values in the repository's own tests."""
import re, struct, sys, zlib
SYM = '/repo/src/sym/'
GEN = '/repo/src/generators/'
NEW = {('EAN13', 'new'): 'Ean13.new .debug', ('Bookland', 'new'): 'Ean13.new .debug', ('JAN', 'new'): 'Ean13.new .debug',
       ('EAN8', 'new'): 'Ean8.new .debug', ('UPCA', 'new'): 'Upca.new .debug', ('EANSUPP', 'new'): 'EanSupp.new',
       ('Code39', 'new'): 'Code39.new', ('Code39', 'with_checksum'): 'Code39.withChecksum', ('Code93', 'new'): 'Code93.new',
       ('Code11', 'new'): 'Code11.new', ('USD8', 'new'): 'Code11.new', ('Codabar', 'new'): 'Codabar.new',
       ('TF', 'interleaved'): 'TF.interleaved .debug', ('TF', 'standard'): 'TF.standard', ('Code128', 'new'): 'Code128.new'}
ENC = {'Ean13.new .debug': 'Ean13.encode .debug', 'Ean8.new .debug': 'Ean8.encode .debug', 'Upca.new .debug': 'Upca.encode .debug',
       'EanSupp.new': 'EanSupp.encode .debug', 'Code39.new': 'Code39.encode', 'Code39.withChecksum': 'Code39.encode',
       'Code93.new': 'Code93.encode', 'Code11.new': 'Code11.encode', 'Codabar.new': '(fun x => Outcome.ok (Codabar.encode x))',
       'TF.interleaved .debug': 'TF.encode', 'TF.standard': 'TF.encode', 'Code128.new': 'Code128.encode .debug'}
ERR = {'Character': '.character', 'Length': '.length', 'Checksum': '.checksum', 'Generate': '.generate'}
def leanstr(s):
    s = re.sub(r'\\u\{([0-9A-Fa-f]+)\}', lambda m: '\\u%04x' % int(m.group(1), 16), s)
    return '"' + s + '".toList'
out = ['import Verif.Model.Ean13\nimport Verif.Model.Ean8\nimport Verif.Model.Upca\nimport Verif.Model.EanSupp\nimport Verif.Model.Code39\nimport Verif.Model.Code93\nimport Verif.Model.Code11\nimport Verif.Model.Codabar\nimport Verif.Model.TF\nimport Verif.Model.Code128\nimport Verif.Model.Ascii\nimport Verif.Model.Json\nimport Verif.Model.Svg\n',
'/-!\n# The model against the expected values in the repository\'s own unit tests\n\nGenerated by `tools/gen_conformance.py`. `#guard` evaluates the model; nothing here is a proof.\n-/\n',
'namespace Barcoders.Conformance\n',
'/-- `collapse_vec` of the tests. -/\ndef collapse (o : Outcome (List Nat)) : Option String :=\n  match o with\n  | .ok l => some (String.ofList (l.map (fun n => Char.ofNat (48 + n))))\n  | _ => none\n',
'/-- The error of a result. -/\ndef errOf {α : Type} (o : Outcome α) : Option Error :=\n  match o with\n  | .err e => some e\n  | _ => none\n',
'/-- The text of a result. -/\ndef text (o : Outcome (List Char)) : Option String :=\n  match o with\n  | .ok l => some (String.ofList l)\n  | _ => none\n']
n = 0
for f in ['ean13', 'ean8', 'upca', 'ean_supp', 'code39', 'code93', 'code11', 'codabar', 'tf', 'code128']:
    src = open(SYM + f + '.rs').read()
    t = src[src.index('mod tests'):]
    for name, body in re.findall(r'#\[test\]\s+fn (\w+)\(\) \{(.*?)\n    \}', t, re.S):
        var = {}
        for v, ty, fn, arg in re.findall(r'let (\w+) =\s*(\w+)::(\w+)\(\s*"((?:[^"\\]|\\.)*)"(?:\.to_string\(\))?,?\s*\)', body):
            var[v] = (NEW[(ty, fn)], arg)
        out.append(f'-- `src/sym/{f}.rs` test `{name}`')
        for v in re.findall(r'assert!\((\w+)\.is_ok\(\)\)', body):
            c, a = var[v]; out.append(f'#guard ({c} {leanstr(a)}).isOk'); n += 1
        for v, e in re.findall(r'assert_eq!\(\s*(\w+)\.err\(\)\.unwrap\(\), Error::(\w+)', body):
            c, a = var[v]; out.append(f'#guard errOf ({c} {leanstr(a)}) == some {ERR[e]}'); n += 1
        for v, e in re.findall(r'assert_eq!\(\s*collapse_vec\((\w+)\.encode\(\)\),\s*"([01]+)"', body):
            c, a = var[v]; out.append(f'#guard collapse ({c} {leanstr(a)} >>= {ENC[c]}) == some "{e}"'); n += 1
for f, L in [('ascii', 'Ascii.ASCII'), ('json', 'Json.JSON'), ('svg', None)]:
    src = open(GEN + f + '.rs').read()
    t = src[src.index('mod tests'):]
    for name, body in re.findall(r'#\[test\]\s+fn (\w+)\(\) \{(.*?)\n    \}', t, re.S):
        m = re.search(r'let (\w+) = (\w+)::(\w+)\("((?:[^"\\]|\\.)*)"(?:\.to_string\(\))?\)', body)
        c = NEW[(m.group(2), m.group(3))]; bars = f'({c} {leanstr(m.group(4))} >>= {ENC[c]})'
        out.append(f'-- `src/generators/{f}.rs` test `{name}`')
        if L:
            g = re.search(r'(?:ASCII|JSON)\s*\{\s*height: (\d+),\s*xdim: (\d+),?\s*\}', body)
            gen = f'{{ height := {g.group(1)}, xdim := {g.group(2)} : {L} }}' if g else L.split('.')[0] + '.new'
            exp = re.search(r'assert_eq!\(\s*generated,\s*(.*?)\s*\);', body, re.S).group(1).strip()
            if f == 'ascii':
                exp = ''.join(re.findall(r'"(.*)"', exp, re.S))
                exp = re.sub(r'\\\n\s*', '', exp)
                if '.trim' in body: exp = exp.strip()
                e = exp.replace('\n', '\\n')
            else:
                e = re.search(r'"(.*)"', exp, re.S).group(1)
            out.append(f'#guard text ({bars} >>= {L.split(".")[0]}.generate {gen}) == some "{e}"'); n += 1
        else:
            def col(k):
                x = re.search(k + r': Color \{\s*rgba: \[([\d, ]+)\]', body)
                if x: return '⟨' + x.group(1) + '⟩'
                x = re.search(k + r': Color::(\w+)', body)
                return 'Svg.Color.' + x.group(1)
            x = re.search(r'SVG::new\((\d+)\)(?:\.xmlns\("(.*?)"\.to_string\(\)\))?', body)
            if x:
                gen = f'(Svg.new {x.group(1)})'
                if x.group(2): gen = f'({gen}.setXmlns {leanstr(x.group(2))})'
            else:
                h = re.search(r'height: (\d+)', body).group(1); xd = re.search(r'xdim: (\d+)', body).group(1)
                gen = f'{{ height := {h}, xdim := {xd}, foreground := {col("foreground")}, background := {col("background")}, xmlns := none : Svg.SVG }}'
            e = re.search(r'assert_eq!\(generated.len\(\), (\d+)\)', body).group(1)
            out.append(f'#guard (text ({bars} >>= Svg.generate .debug {gen})).map String.utf8ByteSize == some {e}'); n += 1
def picture(f):
    """The middle row of a grey PNG without interlacing, dark pixels as 1."""
    d = open(f, 'rb').read(); i = 8; z = b''
    while i < len(d):
        k, t = struct.unpack('>I4s', d[i:i + 8]); c = d[i + 8:i + 8 + k]; i += 12 + k
        if t == b'IHDR': w, h, depth, colour, _, _, lace = struct.unpack('>IIBBBBB', c)
        if t == b'IDAT': z += c
    assert (depth, colour, lace) == (8, 0, 0)
    raw = zlib.decompress(z); prev = bytearray(w); rows = []
    for y in range(h):
        ft = raw[y * (w + 1)]; line = bytearray(raw[y * (w + 1) + 1:(y + 1) * (w + 1)])
        for x in range(w):
            a = line[x - 1] if x else 0; b = prev[x]; c = prev[x - 1] if x else 0
            pa, pb, pc = abs(b - c), abs(a - c), abs(a + b - 2 * c)
            line[x] = (line[x] + [0, a, b, (a + b) // 2, a if pa <= pb and pa <= pc else b if pb <= pc else c][ft]) & 255
        rows.append(line); prev = line
    return ''.join('1' if v < 128 else '0' for v in rows[h // 2])
out.append('\n/-! The picture in the README (`media/code39_1istheloneliestnumber.png`). -/\n')
out.append('#guard collapse (Code39.new "1ISTHELONELIESTNUMBER".toList >>= Code39.encode) == some "'
           + picture('/repo/media/code39_1istheloneliestnumber.png') + '"'); n += 1
out.append('\nend Barcoders.Conformance')
open(sys.argv[1] if len(sys.argv) > 1 else '/verif/lean/Verif/Conformance.lean', 'w').write('\n'.join(out) + '\n')
print(n)
