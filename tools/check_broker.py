#!/usr/bin/env python3
"""Checks the generated models of message/keys.go and gen.broker.go by translating them back.

Like check_messages.py, and independent of gen_broker.py: from lean/Verif/Gen/{Keys,ApiVersion,Broker}.lean it writes the constants, the type
`apiVersion`, the cases of `negotiateApiVersions` and the 48 methods, and compares with the Go files up to comments and spacing.
"""
import os
import re
import sys

REPO = sys.argv[1] if len(sys.argv) > 1 else '/repo'
HERE = os.path.dirname(os.path.dirname(os.path.abspath(__file__)))


def lean(name):
    return re.sub(r'/-.*?-/', '', open(os.path.join(HERE, 'lean/Verif/Gen', name)).read(), flags=re.S)


def go(name):
    out = []
    for raw in open(os.path.join(REPO, name)):
        line = re.sub(r'\s+', ' ', raw.split('//')[0]).strip()
        if line:
            out.append(line)
    return out


def between(lines, first, last):
    i = lines.index(first)
    j = lines.index(last, i)
    return lines[i + 1:j]


def compare(what, a, b):
    ok = a == b
    print('%s: %d lines, %s' % (what, len(b), 'the same' if ok else 'DIFFERENT'))
    if not ok:
        for x, y in zip(a + [None] * len(b), b + [None] * len(a)):
            if x != y:
                print('  lean:', x)
                print('  go:  ', y)
                break
    return ok


METHOD = '''func (b *Broker) %(M)s(req message.%(Q)s) (message.%(R)s, error) {
var resp message.%(R)s
err := b.conn.Do(
func(e *message.Encoder, correlationID int32) {
hdr := message.RequestHeader{
RequestApiKey: message.Key%(K)s,
RequestApiVersion: b.apiVersion.%(V1)s,
CorrelationId: correlationID,
ClientId: b.config.clientID,
}
size := hdr.Size(%(h1)s) + req.Size(b.apiVersion.%(V2)s)
e.PutInt32(size)
hdr.Encode(e, %(h2)s)
req.Encode(e, b.apiVersion.%(V3)s)
},
func(d *message.Decoder) error {
return (&resp).Decode(d, b.apiVersion.%(V4)s)
},
)
return resp, err
}'''


def main():
    ok = True
    keys = re.findall(r'^def (\w+) : Int16 := (\d+)$', lean('Keys.lean'), flags=re.M)
    ok &= compare('keys', ['Key%s = %s' % (k[0].upper() + k[1:], v) for k, v in keys], between(go('message/keys.go'), 'const (', ')'))

    broker = go('gen.broker.go')
    av = lean('ApiVersion.lean')
    fields = re.findall(r'^  (\w+) : Int16 := 0$', av, flags=re.M)
    ok &= compare('type apiVersion', ['%s int16' % f for f in fields], between(broker, 'type apiVersion struct {', '}'))

    cases = re.findall(r'\{ key := Key\.(\w+), lo := (\d+), hi := (\d+), assign := fun av v => \{ av with (\w+) := v \} \}', av)
    want = []
    for k, lo, hi, f in cases:
        want += ['case message.Key%s:' % (k[0].upper() + k[1:]), 'av.%s, err = matchVersion(apiKey, %s, %s)' % (f, lo, hi), 'if err != nil {',
                 'return apiVersion{}, err', '}']
    i = broker.index('switch apiKey.ApiKey {')
    j = broker.index('return av, nil', i)
    ok &= compare('negotiateApiVersions', want + ['}', '}'], broker[i + 1:j])

    want = []
    text = lean('Broker.lean')
    for m in re.finditer(r'''def Broker\.(\w+) \(b : Broker\) \(req : (\w+)\) : Call (\w+) :=
  \{ encode := fun correlationID =>
      let hdr : RequestHeader :=
        \{ RequestApiKey := Key\.(\w+), RequestApiVersion := b\.apiVersion\.(\w+),
          CorrelationId := correlationID, ClientId := b\.config\.clientID \}
      let size := RequestHeader\.size (\d+) hdr \+ (\w+)\.size b\.apiVersion\.(\w+) req
      \(·\.putInt32 size\) ;; RequestHeader\.encode (\d+) hdr ;;
      (\w+)\.encode b\.apiVersion\.(\w+) req
    decode := (\w+)\.decode b\.apiVersion\.(\w+) \{\} \}
''', text):
        name, q, r, key, v1, h1, q2, v2, h2, q3, v3, r2, v4 = m.groups()
        if not (q == q2 == q3 and r == r2):
            raise SystemExit('types of ' + name)
        want += (METHOD % {'M': name[0].upper() + name[1:], 'Q': q, 'R': r, 'K': key[0].upper() + key[1:], 'V1': v1, 'V2': v2, 'V3': v3, 'V4': v4,
                           'h1': h1, 'h2': h2}).split('\n')
    i = next(n for n, x in enumerate(broker) if x.startswith('func (b *Broker) Produce('))
    j = broker.index('type MessageHandler func(*Message) error')
    ok &= compare('%d methods' % len(re.findall(r'^def Broker\.', text, flags=re.M)), want, broker[i:j])
    return not ok


if __name__ == '__main__':
    sys.exit(main())
