"""Writes lean/Verif/Model/ClientTable.lean from /repo/pkg/client/model_*.go.

Every method of the record types is matched against the text of its kind, with holes for the names of fields and types. The whole text of a file between
the struct and the end has to be used up, else the script stops. What a method is called and which field it uses are read from different holes."""
import re, glob, os
out=[]
def take(pat,s,what):
    m=re.match(pat,s,re.S)
    assert m,(what,s[:300])
    return m,s[m.end():]
def lit(t):
    # template: «n» are named holes for identifiers, types are written «t:n»
    r=''
    for part in re.split(r'(«[^»]*»)',t):
        if part.startswith('«'):
            n=part[1:-1]
            if n.startswith('t:'): r+=r'(?P<%s>[\w.*\[\]]+)'%n[2:]
            elif n.startswith('='): r+=r'(?P=%s)'%n[1:]
            else: r+=r'(?P<%s>\w+)'%n
        else: r+=re.escape(part)
    return r
COM=r'\s*(?://[^\n]*\n)*\s*'
GETREQ='func (o *«ty») Get«name»() «t:r» {\n\tif o == nil {\n\t\tvar ret «=r»\n\t\treturn ret\n\t}\n\n\treturn o.«f»\n}\n'
OKREQ='func (o *«ty») Get«name»Ok() (*«t:r», bool) {\n\tif o == nil {\n\t\treturn nil, false\n\t}\n\treturn &o.«f», true\n}\n'
SETREQ='func (o *«ty») Set«name»(v «t:r») {\n\to.«f» = v\n}\n'
GETOPT='func (o *«ty») Get«name»() «t:r» {\n\tif o == nil || IsNil(o.«f») {\n\t\tvar ret «=r»\n\t\treturn ret\n\t}\n\treturn *o.«=f»\n}\n'
OKOPT='func (o *«ty») Get«name»Ok() (*«t:r», bool) {\n\tif o == nil || IsNil(o.«f») {\n\t\treturn nil, false\n\t}\n\treturn o.«=f», true\n}\n'
HAS='func (o *«ty») Has«name»() bool {\n\tif o != nil && !IsNil(o.«f») {\n\t\treturn true\n\t}\n\n\treturn false\n}\n'
SETOPT='func (o *«ty») Set«name»(v «t:r») {\n\to.«f» = &v\n}\n'
GETLIST=GETOPT.replace('*o.','o.')
OKLIST=OKOPT.replace('(*«t:r»','(«t:r»')
NULL='''type Nullable«ty» struct {
	value *«=ty»
	isSet bool
}

func (v Nullable«=ty») Get() *«=ty» {
	return v.value
}

func (v *Nullable«=ty») Set(val *«=ty») {
	v.value = val
	v.isSet = true
}

func (v Nullable«=ty») IsSet() bool {
	return v.isSet
}

func (v *Nullable«=ty») Unset() {
	v.value = nil
	v.isSet = false
}

func NewNullable«=ty»(val *«=ty») *Nullable«=ty» {
	return &Nullable«=ty»{value: val, isSet: true}
}

func (v Nullable«=ty») MarshalJSON() ([]byte, error) {
	return json.Marshal(v.value)
}

func (v *Nullable«=ty») UnmarshalJSON(src []byte) error {
	v.isSet = true
	return json.Unmarshal(src, &v.value)
}
'''
types=[]
for path in sorted(glob.glob('/repo/pkg/client/model_*.go')):
    src=open(path).read(); base=os.path.basename(path)
    i=src.index('\ntype ')+1
    line0=src[:i].count('\n')+1
    m,s=take(r'type (?P<ty>\w+) struct \{\n(?P<body>.*?)\n\}\n',src[i:],'struct')
    ty=m['ty']; fields=[]
    for l in m['body'].split('\n'):
        mm=re.fullmatch(r'\t(\w+)\s+(\S+)\s+`json:"(\w+)(,omitempty)?"`',l); assert mm,l
        name,gt,key,om=mm.groups()
        kind='optional' if gt.startswith('*') else 'list' if gt.startswith('[]') else 'required'
        assert (kind=='required')==(om is None),l
        fields.append((name,kind,gt.lstrip('*'),key))
    _,s=take(COM,s,'')
    m,s=take(r'func New%s\((?P<ps>[^)]*)\) \*%s \{\n\tthis := %s\{\}\n(?P<as>(?:\tthis\.\w+ = \w+\n)*)\treturn &this\n\}\n'%(ty,ty,ty),s,'new')
    params=[p.split(' ')[0] for p in m['ps'].split(', ')] if m['ps'] else []
    assigns=re.findall(r'this\.(\w+) = (\w+)\n',m['as'])
    new=[(a,params.index(b)) for a,b in assigns]
    _,s=take(COM,s,'')
    m,s=take(r'func New%sWithDefaults\(\) \*%s \{\n\tthis := %s\{\}\n\treturn &this\n\}\n'%(ty,ty,ty),s,'defaults')
    rows=[]
    for (name,kind,gt,key) in fields:
        tpls={'required':[GETREQ,OKREQ,None,SETREQ],'optional':[GETOPT,OKOPT,HAS,SETOPT],'list':[GETLIST,OKLIST,HAS,SETREQ]}[kind]
        used=[]
        for t in tpls:
            if t is None: used.append(name); continue
            _,s=take(COM,s,'')
            m,s=take(lit(t),s,(ty,name))
            assert m['ty']==ty and m['name']==name,(ty,name,m.groupdict())
            if 'r' in m.groupdict(): assert m['r']==gt,(m['r'],gt)
            used.append(m['f'])
        rows.append((name,kind,used))
    _,s=take(COM,s,'')
    m,s=take(r'func \(o %s\) MarshalJSON\(\).*?\n\}\n\s*func \(o %s\) ToMap\(\) \(map\[string\]interface\{\}, error\) \{\n\ttoSerialize := map\[string\]interface\{\}\{\}\n(?P<b>.*?)\treturn toSerialize, nil\n\}\n'%(ty,ty),s,'tomap')
    b=m['b']; keys=[]
    for (name,kind,gt,key) in fields:
        if kind=='required':
            mm,b=take(r'\ttoSerialize\["(\w+)"\] = o\.(\w+)\n',b,'m'); keys.append((mm[1],mm[2],mm[2]))
        else:
            mm,b=take(r'\tif !IsNil\(o\.(\w+)\) \{\n\t\ttoSerialize\["(\w+)"\] = o\.(\w+)\n\t\}\n',b,'m'); keys.append((mm[2],mm[1],mm[3]))
    assert b==''
    assert [(k,a,c) for k,a,c in keys]==[(f[3],f[0],f[0]) for f in fields],ty
    _,s=take(COM,s,'')
    m,s=take(lit(NULL),s,'nullable'); assert m['ty']==ty
    assert s.strip()=='',s[:200]
    types.append((ty,base,line0,src.count('\n'),rows,new,len(params)))
def b(x): return 'b! "%s"'%x
o=['/-! Generated by tools/client_accessors.py from /repo/pkg/client/model_*.go. -/','']
o=['import Verif.Go.Basic','']+o
o+=['namespace Metro2','','/-- How a field of a client type is held: by value, by a pointer that may be nil, or as a slice. -/','inductive ClientFieldKind where','  | required','  | optional','  | list','deriving DecidableEq','',
'/-- A field of a client type with its methods `GetX`, `GetXOk`, `HasX` and `SetX`, where `X` is `name`: `get` … `set` are the fields that the',
'bodies of these methods use. A required field has no method `HasX`; there `has` is the field itself. `GetX` and `GetXOk` of other fields name the field twice; the script that wrote the table requires that both are the same. -/',
'structure ClientField where','  name : Bytes','  kind : ClientFieldKind','  get : Bytes','  getOk : Bytes','  has : Bytes','  set : Bytes','deriving DecidableEq','',
'/-- A client type: its fields, and the assignments of its constructor `NewT`: the field and the position of the parameter that it gets. -/',
'structure ClientType where','  name : Bytes','  fields : List ClientField','  assigns : List (Bytes × Nat)','  parameters : Nat','deriving DecidableEq','']
for ty,base,a,z,rows,new,np in types:
    o.append('/-- `%s` with its constructor and accessors, /repo/pkg/client/%s:%d-%d. -/'%(ty,base,a,z))
    o.append('def accessors%s : ClientType := ⟨%s, ['%(ty,b(ty)))
    o.append(',\n'.join('  ⟨%s, .%s, %s, %s, %s, %s⟩'%(b(n),k,*[b(u) for u in us]) for n,k,us in rows)+'],')
    o.append('  ['+', '.join('(%s, %d)'%(b(f),i) for f,i in new)+'], %d⟩'%np); o.append('')
o.append('/-- The types of the client. -/')
o.append('def clientTypes : List ClientType := ['+',\n  '.join(', '.join('accessors'+t[0] for t in types[i:i+5]) for i in range(0,13,5))+']')
o+=['','end Metro2','']
open('/verif/lean/Verif/Model/ClientTable.lean','w').write('\n'.join(o))
print(len(types),sum(len(t[4]) for t in types))
