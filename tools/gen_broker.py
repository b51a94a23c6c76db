"""Generate the Lean model of gen.broker.go and message/keys.go, and the table of APIs.

The parser is strict: every method must have exactly the shape below, but each identifier
in it (header key, header version, size version, encode version, decode version, ...) is
extracted separately and written to the Lean model as found.
"""
import os
import re

ROOT = os.path.join(os.path.dirname(os.path.abspath(__file__)), '..', 'lean', 'Verif', 'Gen')
BROKER = open('/repo/gen.broker.go').read().split('\n')
KEYS = open('/repo/message/keys.go').read().split('\n')
MSGS = open('/repo/message/messages.gen.go').read().split('\n')

SHAPE = r'''// (?P<cname>\w+) \(apiKey: (?P<ckey>\d+)\)
func \(b \*Broker\) (?P<name>\w+)\(req message\.(?P<req>\w+)\) \(message\.(?P<resp>\w+), error\) \{
	var resp message\.(?P<resp2>\w+)
	err := b\.conn\.Do\(
		// encode request
		func\(e \*message\.Encoder, correlationID int32\) \{
			hdr := message\.RequestHeader\{
				RequestApiKey:     message\.(?P<hkey>\w+),
				RequestApiVersion: b\.apiVersion\.(?P<hver>\w+),
				CorrelationId:     correlationID,
				ClientId:          b\.config\.clientID,
			\}
			size := hdr\.Size\((?P<hsize>\d+)\) \+ req\.Size\(b\.apiVersion\.(?P<sver>\w+)\)
			e\.PutInt32\(size\)
			hdr\.Encode\(e, (?P<henc>\d+)\)
			req\.Encode\(e, b\.apiVersion\.(?P<ever>\w+)\)
		\},
		// decode response
		func\(d \*message\.Decoder\) error \{
			return \(&resp\)\.Decode\(d, b\.apiVersion\.(?P<dver>\w+)\)
		\},
	\)
	return resp, err
\}'''.split('\n')


def low(s):
    return s[0].lower() + s[1:]


def parse_methods():
    out = []
    i = 64
    while not BROKER[i].startswith('type MessageHandler'):
        if BROKER[i] == '':
            i += 1
            continue
        m = {'from': i + 2, 'to': i + len(SHAPE)}
        for k, pat in enumerate(SHAPE):
            r = re.fullmatch(pat, BROKER[i + k])
            assert r, (i + k + 1, BROKER[i + k], pat)
            m.update(r.groupdict())
        assert m['resp'] == m['resp2']
        out.append(m)
        i += len(SHAPE)
    return out


def parse_versions():
    a = next(i for i, l in enumerate(BROKER) if l == 'type apiVersion struct {')
    fields = []
    i = a + 1
    while BROKER[i] != '}':
        fields.append(re.fullmatch(r'\t(\w+)\s+int16', BROKER[i]).group(1))
        i += 1
    n = next(i for i, l in enumerate(BROKER) if l.startswith('func negotiateApiVersions('))
    head = ['', '	// Since this file', '	// versions elsewhere', '	var av apiVersion', '	var err error',
            '	for _, apiKey := range apiKeys {', '		switch apiKey.ApiKey {']
    for k, h in enumerate(head):
        assert BROKER[n + k].startswith(h), BROKER[n + k]
    cases = []
    i2 = n + len(head)
    while BROKER[i2] != '		}':
        ls = BROKER[i2:i2 + 5]
        k = re.fullmatch(r'\t\tcase message\.(\w+):', ls[0])
        c = re.fullmatch(r'\t\t\tav\.(\w+), err = matchVersion\(apiKey, (\d+), (\d+)\)', ls[1])
        assert k and c, ls
        assert ls[2:] == ['\t\t\tif err != nil {', '\t\t\t\treturn apiVersion{}, err', '\t\t\t}'], ls
        cases.append((i2 + 1, k.group(1), c.group(1), c.group(2), c.group(3)))
        i2 += 5
    assert BROKER[i2:i2 + 4] == ['\t\t}', '\t}', '\treturn av, nil', '}'], BROKER[i2:i2 + 4]
    return (a + 1, i + 1), fields, (n + 1, i2 + 4), cases


def parse_keys():
    out = []
    for i, l in enumerate(KEYS):
        r = re.fullmatch(r'\t(Key\w+)\s*= (\d+)', l)
        if r:
            out.append((i + 1, r.group(1), int(r.group(2))))
    return out


def parse_docs():
    """The comments `// XRequest; ApiKey: k, Versions: a-b` on the message types."""
    out = {}
    for l in MSGS:
        r = re.fullmatch(r'// (\w+); ApiKey: (\d+), Versions: (\d+)(?:-(\d+))?', l)
        if r:
            out[r.group(1)] = (int(r.group(2)), int(r.group(3)), int(r.group(4) or r.group(3)))
    return out


def write(name, text):
    with open(os.path.join(ROOT, name), 'w') as f:
        f.write(text)


methods = parse_methods()
vlines, fields, nlines, cases = parse_versions()
keys = parse_keys()
docs = parse_docs()
assert len(methods) == len(fields) == len(cases) == len(keys) == 48

# --- keys -----------------------------------------------------------------
o = ['/-!', 'Generated by tools/gen_broker.py from message/keys.go: the api key constants.', '-/',
     'namespace Kafka.Key', '']
for ln, k, v in keys:
    o.append(f'/-- message/keys.go:{ln} -/')
    o.append(f'def {low(k[3:])} : Int16 := {v}')
o += ['', 'end Kafka.Key', '']
write('Keys.lean', '\n'.join(o))

# --- apiVersion and the switch of negotiateApiVersions --------------------
o = ['import Verif.Gen.Keys', '/-!',
     'Generated by tools/gen_broker.py from gen.broker.go: the table of negotiated versions and',
     'the `switch` of `negotiateApiVersions`.', '-/', 'namespace Kafka', '',
     f'/-- gen.broker.go:{vlines[0]}-{vlines[1]} `type apiVersion struct` -/',
     '@[ext] structure ApiVersion where']
o += [f'  {f} : Int16 := 0' for f in fields]
o += ['',
      '/-- One `case` of the switch: `case key: av.F, err = matchVersion(apiKey, lo, hi)`. -/',
      'structure NegotiateCase where', '  key : Int16', '  lo : Int16', '  hi : Int16',
      '  assign : ApiVersion → Int16 → ApiVersion', '',
      f'/-- gen.broker.go:{cases[0][0]}-{cases[-1][0] + 4}: the cases in source order. -/',
      'def negotiateCases : List NegotiateCase :=', '  [']
rows = []
for ln, k, f, lo, hi in cases:
    rows.append(f'   {{ key := Key.{low(k[3:])}, lo := {lo}, hi := {hi}, assign := fun av v => {{ av with {f} := v }} }}')
o[-1] = '  [' + rows[0].strip() + ','
o += [r + ',' for r in rows[1:-1]] + [rows[-1] + ']']
o += ['', 'end Kafka', '']
write('ApiVersion.lean', '\n'.join(o))

# --- broker methods -------------------------------------------------------
apis = [m['name'] for m in methods]
o = [f'import Verif.Gen.Model.{m["name"]}' for m in methods]
o += ['import Verif.Gen.Model.Header', 'import Verif.Gen.ApiVersion', 'import Verif.Broker.Config', '/-!',
      'Generated by tools/gen_broker.py from gen.broker.go: the 48 API methods.', '-/', 'namespace Kafka', '',
      'open Msg', '',
      '/-- gen.broker.go:26-30 `Broker`; the connection is modelled in Verif.Conn. -/',
      'structure Broker where', '  apiVersion : ApiVersion := {}', '  config : Config', '',
      '/-- The two functions an API method hands to `Conn.Do`: `encode` writes the request for a',
      'correlation id, `decode` reads the response body into a fresh response value. -/',
      'structure Call (α : Type) where', '  encode : Int32 → Encoder → Encoder', '  decode : Dec α', '']
for m in methods:
    o += [f'/-- gen.broker.go:{m["from"]}-{m["to"]} `Broker.{m["name"]}` -/',
          f'def Broker.{low(m["name"])} (b : Broker) (req : {m["req"]}) : Call {m["resp"]} :=',
          '  { encode := fun correlationID =>',
          '      let hdr : RequestHeader :=',
          f'        {{ RequestApiKey := Key.{low(m["hkey"][3:])}, RequestApiVersion := b.apiVersion.{m["hver"]},',
          '          CorrelationId := correlationID, ClientId := b.config.clientID }',
          f'      let size := RequestHeader.size {m["hsize"]} hdr + {m["req"]}.size b.apiVersion.{m["sver"]} req',
          f'      (·.putInt32 size) ;; RequestHeader.encode {m["henc"]} hdr ;;',
          f'      {m["req"]}.encode b.apiVersion.{m["ever"]} req',
          f'    decode := {m["resp"]}.decode b.apiVersion.{m["dver"]} {{}} }}', '']
o += ['end Kafka', '']
write('Broker.lean', '\n'.join(o))

# --- the table of APIs ----------------------------------------------------
o = ['import Verif.Gen.All', 'import Verif.Gen.Broker', '/-!',
     'Generated by tools/gen_broker.py: the APIs of the protocol and, for each, its key, the',
     'versions documented for its request type in message/messages.gen.go, its message types',
     'and the method of `Broker` that calls it.', '-/', 'namespace Kafka', '', 'open Msg', '',
     '/-- The APIs of the protocol. -/', 'inductive Api where']
o += [f'  | {m["name"]}' for m in methods]
o += ['deriving DecidableEq, Repr', '', 'namespace Api', '',
      '/-- All APIs. -/', 'def all : List Api :=', '  [' + ',\n   '.join('.' + m['name'] for m in methods) + ']', '',
      'theorem mem_all (a : Api) : a ∈ all := by cases a <;> decide', '',
      '/-- The key of an API (https://kafka.apache.org/protocol#protocol_api_keys; also in the',
      'comments of message/messages.gen.go). -/', 'def key : Api → Int16']
for m in methods:
    d = docs[m['req']]
    assert docs[m['resp']] == d and d[0] == int(m['ckey']) and m['cname'] == m['name'], m
    o.append(f'  | .{m["name"]} => {d[0]}')
o += ['', '/-- The highest version this library implements, as documented by the comment',
      '`Versions: 0-n` on the request and the response type in message/messages.gen.go.',
      'The lowest is 0 for all. -/', 'def maxVersion : Api → Int16']
for m in methods:
    d = docs[m['req']]
    assert d[1] == 0
    o.append(f'  | .{m["name"]} => {d[2]}')
o += ['', '/-- The request type. -/', 'def req : Api → MsgType']
o += [f'  | .{m["name"]} => {m["name"]}Request.type' for m in methods]
o += ['', '/-- The response type. -/', 'def resp : Api → MsgType']
o += [f'  | .{m["name"]} => {m["name"]}Response.type' for m in methods]
o += ['', '/-- The specification of the request type. -/', 'def reqLayout : (a : Api) → Layout a.req']
o += [f'  | .{m["name"]} => {m["name"]}Request.layout' for m in methods]
o += ['', '/-- The specification of the response type. -/', 'def respLayout : (a : Api) → Layout a.resp']
o += [f'  | .{m["name"]} => {m["name"]}Response.layout' for m in methods]
o += ['', 'theorem req_lawful : (a : Api) → Lawful a.req a.reqLayout']
o += [f'  | .{m["name"]} => {m["name"]}Request.lawful' for m in methods]
o += ['', 'theorem resp_lawful : (a : Api) → Lawful a.resp a.respLayout']
o += [f'  | .{m["name"]} => {m["name"]}Response.lawful' for m in methods]
o += ['', 'end Api', '', '/-- The entry of the version table for an API. -/',
      'def ApiVersion.get (av : ApiVersion) : Api → Int16']
o += [f'  | .{m["name"]} => av.{m["name"]}' for m in methods]
o += ['', '/-- Replace one entry of the version table. -/',
      'def ApiVersion.put (av : ApiVersion) (v : Int16) : Api → ApiVersion']
o += [f'  | .{m["name"]} => {{ av with {m["name"]} := v }}' for m in methods]
o += ['', 'theorem ApiVersion.ext_get {av av\' : ApiVersion} (h : ∀ a, av.get a = av\'.get a) : av = av\' :=',
      '  ApiVersion.ext ' + '\n    '.join(f'(h .{m["name"]})' for m in methods)]
o += ['', '/-- The method of `Broker` for an API. -/',
      'def Broker.call (b : Broker) : (a : Api) → a.req.T → Call a.resp.T']
o += [f'  | .{m["name"]} => fun req => b.{low(m["name"])} req' for m in methods]
o += ['', 'end Kafka', '']
write('Api.lean', '\n'.join(o))

o = [f'import Verif.Gen.Alloc.{m["name"]}' for m in methods] + ['import Verif.Gen.Api', '/-!',
     'Generated by tools/gen_broker.py: the decoding of the responses with the memory it asks for.', '-/',
     'namespace Kafka', '', 'open Msg', '', 'namespace Api', '',
     '/-- `Decode` of the response type into a new value, with the memory it asks for. -/',
     'def decodeA : (a : Api) → Int16 → ADec a.resp.T']
o += [f'  | .{m["name"]}, v => {m["name"]}Response.decodeA v {{}}' for m in methods]
o += ['', 'theorem decodeA_erases : (a : Api) → (v : Int16) → Erases (a.decodeA v) (a.resp.decode v a.resp.zero)']
o += [f'  | .{m["name"]}, v => {m["name"]}Response.erases v {{}}' for m in methods]
o += ['', '/-- How deep arrays are nested in the response. -/', 'def depth : Api → Nat']
for m in methods:
    t = open(os.path.join(os.path.dirname(os.path.abspath(__file__)), '..', 'lean', 'Verif', 'Gen', 'Alloc', m['name'] + '.lean')).read()
    d = re.search(r'theorem ' + m['name'] + r'Response\.within.* (\d+) :=', t).group(1)
    o.append(f'  | .{m["name"]} => {d}')
o += ['', 'theorem decodeA_within : (a : Api) → (v : Int16) → Within (a.decodeA v) 0 a.depth']
o += [f'  | .{m["name"]}, v => ({m["name"]}Response.within v {{}}).mono (Nat.zero_le _) (Nat.le_refl _)' for m in methods]
o += ['', 'end Api', 'end Kafka', '']
open(os.path.join(os.path.dirname(os.path.abspath(__file__)), '..', 'lean', 'Verif', 'Gen', 'AllocApi.lean'), 'w').write('\n'.join(o))

o = [f'import Verif.Gen.Work.{m["name"]}' for m in methods] + ['import Verif.Gen.Api', '/-!',
     'Generated by tools/gen_broker.py: the decoding of the responses with the steps it takes.', '-/',
     'namespace Kafka', '', 'open Msg', '', 'namespace Api', '',
     '/-- `Decode` of the response type into a new value, with the steps it takes. -/',
     'def decodeW : (a : Api) → Int16 → ADec a.resp.T']
o += [f'  | .{m["name"]}, v => {m["name"]}Response.decodeW v {{}}' for m in methods]
o += ['', 'theorem decodeW_erases : (a : Api) → (v : Int16) → Erases (a.decodeW v) (a.resp.decode v a.resp.zero)']
o += [f'  | .{m["name"]}, v => {m["name"]}Response.erasesW v {{}}' for m in methods]
o += ['', 'theorem decodeW_spends : (a : Api) → (v : Int16) → Spends (a.decodeW v) 0 1']
o += [f'  | .{m["name"]}, v => {m["name"]}Response.spends0 v {{}}' for m in methods]
o += ['', 'end Api', 'end Kafka', '']
open(os.path.join(os.path.dirname(os.path.abspath(__file__)), '..', 'lean', 'Verif', 'Gen', 'WorkApi.lean'), 'w').write('\n'.join(o))

o = [f'import Verif.Gen.Kept.{m["name"]}' for m in methods] + ['import Verif.Gen.Api', '/-!',
     'Generated by tools/gen_broker.py: the decoding of the responses with the receiver kept.', '-/',
     'namespace Kafka', '', 'open Msg', '', 'namespace Api', '',
     '/-- `Decode` of the response type with its receiver kept. -/',
     'def keeps : (a : Api) → KeptMsg a.resp']
o += [f'  | .{m["name"]} => {m["name"]}Response.keeps' for m in methods]
o += ['', 'theorem keeps_holds : (a : Api) → a.keeps.Holds a.respLayout']
o += [f'  | .{m["name"]} => {m["name"]}Response.keeps_holds' for m in methods]
o += ['', 'end Api', 'end Kafka', '']
open(os.path.join(os.path.dirname(os.path.abspath(__file__)), '..', 'lean', 'Verif', 'Gen', 'KeptApi.lean'), 'w').write('\n'.join(o))
