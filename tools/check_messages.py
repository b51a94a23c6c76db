#!/usr/bin/env python3
"""Checks the generated model of message/messages.gen.go by translating it back.

Reads lean/Verif/Gen/Model/*.lean as text, independently of the generator (it shares no code with parse_messages.py and
gen_messages.py), writes for each Lean definition the Go function it stands for, and compares with the Go file: the same
types with the same fields in the same order, and for each the same Size, Encode and Decode, line by line, up to
comments, spacing and the number in the name of the variables `len0`, `len1`, ...
"""
import glob
import os
import re
import sys

REPO = sys.argv[1] if len(sys.argv) > 1 else '/repo'
HERE = os.path.dirname(os.path.dirname(os.path.abspath(__file__)))

SCALARS = {'GoString': 'string', 'Int8': 'int8', 'Int16': 'int16', 'Int32': 'int32', 'Int64': 'int64', 'Bool': 'bool',
           'Byte': 'byte'}
ZERO = {'GoString': '[]', 'Bool': 'false', 'Int8': '0', 'Int16': '0', 'Int32': '0', 'Int64': '0'}


def cap(s):
    return s[0].upper() + s[1:]


def go_type(t):
    if t.startswith('Slice '):
        return '[]' + go_type(t[6:])
    return SCALARS.get(t, t)


def split(body, sep):
    return [x.strip() for x in body.split(sep)]


def guard(cond, lines):
    m = re.fullmatch(r'version ≥ (\d+)', cond)
    if m:
        return ['if version >= %s {' % m[1]] + lines + ['}']
    m = re.fullmatch(r'version ≥ (\d+) ∧ version ≤ (\d+)', cond)
    if m:
        return ['if version >= %s && version <= %s {' % (m[1], m[2])] + lines + ['}']
    raise SystemExit('unknown condition: ' + cond)


def size_step(s, struct):
    m = re.fullmatch(r'onlyIf \((.*?)\) \((.*)\)', s)
    if m:
        return guard(m[1], size_step(m[2], struct))
    m = re.fullmatch(r'Sizeof\.add Sizeof\.(\w+)', s)
    if m:
        return ['sz += sizeof.%s' % cap(m[1])]
    m = re.fullmatch(r'Sizeof\.add \(Sizeof\.(\w+) t\.(\w+)\)', s)
    if m:
        return ['sz += sizeof.%s(t.%s)' % (cap(m[1]), m[2])]
    m = re.fullmatch(r'Sizeof\.structs \((\w+)\.size version\) t\.(\w+)', s)
    if m:
        if struct[m[2]] != 'Slice ' + m[1]:
            raise SystemExit('type of %s' % m[2])
        return ['sz += sizeof.ArrayLength', 'for i := len(t.%s) - 1; i >= 0; i-- {' % m[2], 'sz += t.%s[i].Size(version)' % m[2], '}']
    raise SystemExit('unknown step in size: ' + s)


def encode_step(s, struct):
    m = re.fullmatch(r'onlyIf \((.*?)\) \((.*)\)', s)
    if m:
        inner = m[2]
        if inner.startswith('·.'):
            inner = '(%s)' % inner
        return guard(m[1], encode_step(inner, struct))
    m = re.fullmatch(r'\(·\.put(\w+) t\.(\w+)\)', s)
    if m:
        return ['e.Put%s(t.%s)' % (m[1], m[2])]
    m = re.fullmatch(r'Encoder\.putStructs \((\w+)\.encode version\) t\.(\w+)', s)
    if m:
        if struct[m[2]] != 'Slice ' + m[1]:
            raise SystemExit('type of %s' % m[2])
        return ['len# := len(t.%s)' % m[2], 'e.PutArrayLength(len#)', 'for i := 0; i < len#; i++ {', 't.%s[i].Encode(e, version)' % m[2], '}']
    raise SystemExit('unknown step in encode: ' + s)


def decode_step(s, struct):
    m = re.fullmatch(r'Dec\.onlyIf \((.*?)\) \((.*)\)', s)
    if m:
        return guard(m[1], decode_step(m[2], struct))
    m = re.fullmatch(r'Dec\.field Dec\.(\w+) \(fun t x => \{ t with (\w+) := x \}\)', s)
    if m:
        return ['t.%s, err = d.%s()' % (m[2], cap(m[1])), 'if err != nil {', 'return err', '}']
    m = re.fullmatch(r'Dec\.fieldStructs \((\w+)\.decode version \{\}\) \(·\.(\w+)\) \(fun t x => \{ t with (\w+) := x \}\)', s)
    if m:
        if m[2] != m[3] or struct[m[2]] != 'Slice ' + m[1]:
            raise SystemExit('field %s' % m[2])
        return ['if n, err := d.ArrayLength(); err != nil {', 'return err', '} else if n >= 0 {', 't.%s = make([]%s, n)' % (m[2], m[1]),
                'for i := 0; i < n; i++ {', 'var item %s' % m[1], 'if err := (&item).Decode(d, version); err != nil {', 'return err', '}',
                't.%s[i] = item' % m[2], '}', '}']
    raise SystemExit('unknown step in decode: ' + s)


def from_lean():
    structs, funcs = {}, {}
    for f in sorted(glob.glob(os.path.join(HERE, 'lean/Verif/Gen/Model/*.lean'))):
        text = open(f).read()
        text = re.sub(r'/-.*?-/', '', text, flags=re.S).replace('«', '').replace('»', '')
        for block in re.split(r'\n(?=def |@\[ext\] structure |end )', text):
            m = re.match(r'@\[ext\] structure (\w+) where\n((?:  .*\n?)*)', block)
            if m:
                fields = {}
                for line in m[2].strip().split('\n') if m[2].strip() else []:
                    g = re.fullmatch(r'\s*(\w+) : (.*?) := (.*)', line)
                    if g is None:
                        raise SystemExit('field: ' + repr(line) + ' of ' + m[1])
                    if g[3] != ('none' if g[2].startswith('Slice ') else ZERO[g[2]]):
                        raise SystemExit('default of %s.%s' % (m[1], g[1]))
                    fields[g[1]] = g[2]
                structs[m[1]] = fields
                continue
            m = re.match(r'def (\w+)\.(size|encode|decode) .*?:=\n(.*)', block, flags=re.S)
            if m:
                funcs[m[1], m[2]] = m[3].strip()
    out = {}
    for name, fields in structs.items():
        out[name, 'type'] = ['%s %s' % (k, go_type(t)) for k, t in fields.items()]
        body = funcs[name, 'size']
        lines = ['var sz int32']
        if body != '(nop) 0':
            m = re.fullmatch(r'\((.*)\) 0', body, flags=re.S)
            if m:
                for s in split(m[1], ';;'):
                    lines += size_step(s, fields)
            else:
                raise SystemExit('size of %s: %s' % (name, body))
        out[name, 'Size'] = lines + ['return sz']
        lines = []
        body = funcs[name, 'encode']
        if body != 'nop':
            for s in split(body, ';;'):
                lines += encode_step(s, fields)
        out[name, 'Encode'] = lines
        lines = ['var err error']
        body = funcs[name, 'decode']
        if body != 'Dec.nop':
            for s in split(body, ';>'):
                lines += decode_step(s, fields)
        out[name, 'Decode'] = lines + ['return err']
    return out


def from_go():
    out, cur, depth = {}, None, 0
    head = {r'type (\w+) struct \{': 'type', r'func \(t (\w+)\) Size\(version int16\) int32 \{': 'Size',
            r'func \(t (\w+)\) Encode\(e \*Encoder, version int16\) \{': 'Encode',
            r'func \(t \*(\w+)\) Decode\(d \*Decoder, version int16\) error \{': 'Decode'}
    for raw in open(os.path.join(REPO, 'message/messages.gen.go')):
        line = re.sub(r'\s+', ' ', raw.split('//')[0]).strip()
        line = re.sub(r'\blen\d+\b', 'len#', line)
        if not line:
            continue
        if cur is None:
            for pat, kind in head.items():
                m = re.fullmatch(pat, line)
                if m:
                    cur = (m[1], kind)
                    if cur in out:
                        raise SystemExit('twice: %s' % (cur,))
                    out[cur] = []
                    break
                m = re.fullmatch(pat + r'\}', line)
                if m:
                    out[m[1], kind] = []
                    break
            else:
                if line not in ('package message', 'import (', '"github.com/savaki/kafka/message/sizeof"', ')'):
                    raise SystemExit('unknown line outside functions: ' + line)
            continue
        if line == '}' and depth == 0:
            cur = None
            continue
        depth += line.count('{') - line.count('}')
        out[cur].append(line)
    return out


def main():
    lean, go = from_lean(), from_go()
    bad = 0
    for k in sorted(set(lean) | set(go)):
        if lean.get(k) != go.get(k):
            bad += 1
            print('%s.%s differs:' % k)
            print('  lean:', lean.get(k))
            print('  go:  ', go.get(k))
    print('%d types and functions compared, %d differ' % (len(set(lean) | set(go)), bad))
    return bad != 0


if __name__ == '__main__':
    sys.exit(main())
