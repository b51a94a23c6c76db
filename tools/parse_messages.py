"""Strict line-oriented parser for /repo/message/messages.gen.go.

Every struct, and every statement of every Size/Encode/Decode function, must match
one of the shapes below, otherwise the parser aborts: nothing is skipped silently.
The three functions of a type are parsed independently of each other, so the Lean
definitions produced from them mirror each Go function separately.
"""
import re

SRC = '/repo/message/messages.gen.go'

PRIM = {'bool', 'int8', 'int16', 'int32', 'int64', 'string', '[]byte', '[]int32', '[]int64', '[]string'}


class Struct:
    def __init__(self, name, line):
        self.name, self.line = name, line
        self.fields = []      # (name, gotype, line)
        self.size = self.encode = self.decode = None   # (startline, endline, ops)
        self.api = None       # top-level: (apikey, lo, hi)


def strip(s):
    # drop trailing comment
    i = s.find('//')
    if i >= 0:
        s = s[:i]
    return s.strip()


def parse(path=SRC):
    lines = open(path).read().split('\n')
    structs, order = {}, []
    i = 0
    pending_api = None

    def expect(k, text):
        got = strip(lines[k])
        if got != text:
            raise SystemExit(f'line {k+1}: expected {text!r}, got {got!r}')

    def guard(s):
        m = re.fullmatch(r'if version >= (\d+) \{', s)
        if m:
            return (int(m[1]), None)
        m = re.fullmatch(r'if version >= (\d+) && version <= (\d+) \{', s)
        if m:
            return (int(m[1]), int(m[2]))
        return None

    def block(k, stmt):
        """parse statements from line index k until a closing '}' at this level."""
        ops = []
        while True:
            s = strip(lines[k])
            if s == '':
                k += 1
                continue
            if s == '}' or s.startswith('return'):
                return ops, k
            g = guard(s)
            if g:
                inner, k2 = block(k + 1, stmt)
                expect(k2, '}')
                for op in inner:
                    if op['guard'] is not None:
                        raise SystemExit(f'nested guard line {k+1}')
                    op['guard'] = g
                    op['gline'] = k + 1
                if len(inner) != 1:
                    raise SystemExit(f'guard with {len(inner)} ops at {k+1}')
                ops += inner
                k = k2 + 1
                continue
            op, k = stmt(k, s)
            op.setdefault('guard', None)
            ops.append(op)

    def size_stmt(k, s):
        m = re.fullmatch(r'sz \+= sizeof\.(Bool|Int8|Int16|Int32|Int64)', s)
        if m:
            return dict(kind='const', what=m[1], line=k + 1), k + 1
        m = re.fullmatch(r'sz \+= sizeof\.(String|Bytes|Int32Array|Int64Array|StringArray)\(t\.(\w+)\)', s)
        if m:
            return dict(kind='fn', what=m[1], field=m[2], line=k + 1), k + 1
        if s == 'sz += sizeof.ArrayLength':
            m = re.fullmatch(r'for i := len\(t\.(\w+)\) - 1; i >= 0; i-- \{', strip(lines[k + 1]))
            f = m[1]
            expect(k + 2, f'sz += t.{f}[i].Size(version)')
            expect(k + 3, '}')
            return dict(kind='array', field=f, line=k + 1), k + 4
        raise SystemExit(f'size: line {k+1}: {s!r}')

    def enc_stmt(k, s):
        m = re.fullmatch(r'e\.Put(Bool|Int8|Int16|Int32|Int64|String|Bytes|Int32Array|Int64Array|StringArray)\(t\.(\w+)\)', s)
        if m:
            return dict(kind='put', what=m[1], field=m[2], line=k + 1), k + 1
        m = re.fullmatch(r'(len\d+) := len\(t\.(\w+)\)', s)
        if m:
            v, f = m[1], m[2]
            expect(k + 1, f'e.PutArrayLength({v})')
            expect(k + 2, f'for i := 0; i < {v}; i++ {{')
            expect(k + 3, f't.{f}[i].Encode(e, version)')
            expect(k + 4, '}')
            return dict(kind='array', field=f, line=k + 1), k + 5
        raise SystemExit(f'encode: line {k+1}: {s!r}')

    def dec_stmt(k, s):
        m = re.fullmatch(r't\.(\w+), err = d\.(Bool|Int8|Int16|Int32|Int64|String|Bytes|Int32Array|Int64Array|StringArray)\(\)', s)
        if m:
            expect(k + 1, 'if err != nil {')
            expect(k + 2, 'return err')
            expect(k + 3, '}')
            return dict(kind='get', what=m[2], field=m[1], line=k + 1), k + 4
        if s == 'if n, err := d.ArrayLength(); err != nil {':
            expect(k + 1, 'return err')
            expect(k + 2, '} else if n >= 0 {')
            m = re.fullmatch(r't\.(\w+) = make\(\[\](\w+), n\)', strip(lines[k + 3]))
            f, ty = m[1], m[2]
            expect(k + 4, 'for i := 0; i < n; i++ {')
            expect(k + 5, f'var item {ty}')
            expect(k + 6, 'if err := (&item).Decode(d, version); err != nil {')
            expect(k + 7, 'return err')
            expect(k + 8, '}')
            expect(k + 9, f't.{f}[i] = item')
            expect(k + 10, '}')
            expect(k + 11, '}')
            return dict(kind='array', field=f, elem=ty, line=k + 1), k + 12
        raise SystemExit(f'decode: line {k+1}: {s!r}')

    while i < len(lines):
        raw = lines[i]
        s = raw.strip()
        m = re.match(r'// (\w+); ApiKey: (\d+), Versions: (\d+)-(\d+)', s)
        if m:
            pending_api = (m[1], int(m[2]), int(m[3]), int(m[4]))
        m = re.fullmatch(r'type (\w+) struct \{', strip(raw))
        if m:
            st = Struct(m[1], i + 1)
            if pending_api and pending_api[0] == st.name:
                st.api = pending_api[1:]
            k = i + 1
            while strip(lines[k]) != '}':
                fs = strip(lines[k]).split()
                if len(fs) != 2:
                    raise SystemExit(f'field line {k+1}')
                st.fields.append((fs[0], fs[1], k + 1))
                k += 1
            structs[st.name] = st
            order.append(st.name)
            i = k + 1
            continue
        m = re.fullmatch(r'func \(t (\w+)\) Size\(version int16\) int32 \{', strip(raw))
        if m:
            expect(i + 1, 'var sz int32')
            ops, k = block(i + 2, size_stmt)
            expect(k, 'return sz')
            expect(k + 1, '}')
            structs[m[1]].size = (i + 1, k + 2, ops)
            i = k + 2
            continue
        m = re.fullmatch(r'func \(t (\w+)\) Encode\(e \*Encoder, version int16\) \{', strip(raw))
        if m:
            ops, k = block(i + 1, enc_stmt)
            expect(k, '}')
            structs[m[1]].encode = (i + 1, k + 1, ops)
            i = k + 1
            continue
        m = re.fullmatch(r'func \(t \*(\w+)\) Decode\(d \*Decoder, version int16\) error \{', strip(raw))
        if m:
            expect(i + 1, 'var err error')
            ops, k = block(i + 2, dec_stmt)
            expect(k, 'return err')
            expect(k + 1, '}')
            structs[m[1]].decode = (i + 1, k + 2, ops)
            i = k + 2
            continue
        if s == '' or s.startswith('//') or s == 'package message' or i < 22:
            i += 1
            continue
        raise SystemExit(f'unexpected line {i+1}: {s!r}')
    return structs, order


if __name__ == '__main__':
    structs, order = parse()
    print(len(order), 'structs')
    bad = 0
    WH = {'Bool': 'bool', 'Int8': 'int8', 'Int16': 'int16', 'Int32': 'int32', 'Int64': 'int64', 'String': 'string',
          'Bytes': '[]byte', 'Int32Array': '[]int32', 'Int64Array': '[]int64', 'StringArray': '[]string'}
    for n in order:
        s = structs[n]
        ft = {f: t for f, t, _ in s.fields}
        e = [(o['kind'] == 'array', o.get('what'), o['field'], o['guard']) for o in s.encode[2]]
        d = [(o['kind'] == 'array', o.get('what'), o['field'], o['guard']) for o in s.decode[2]]
        z = [(o['kind'] == 'array', o.get('what'), o['guard']) for o in s.size[2]]
        if e != d:
            print('ENC/DEC differ', n, e, d); bad += 1
        if [(a, w, g) for a, w, f, g in e] != z:
            print('ENC/SIZE differ', n); bad += 1
        if [x[2] for x in e] != [f for f, _, _ in s.fields]:
            print('field order', n, [x[2] for x in e], [f for f, _, _ in s.fields]); bad += 1
        for a, w, f, g in e:
            if not a and WH[w] != ft[f]:
                print('type', n, f)
    print('bad', bad)
    print([ (n, structs[n].api) for n in order if structs[n].api][:5], sum(1 for n in order if structs[n].api))
    # dependency order
    seen=set()
    for n in order:
        seen.add(n)
