"""A second transcription of the program, written from the Rust text and independent of the Lean model.

The tables (tags, enums, bit layouts, messages) are read from /repo by regular expressions; the rest is ported by
hand. It is not trusted by any proof: tools/differential.py runs it beside the Lean model on random inputs, to find
slips of transcription in the model.
"""
import re,sys
R='/repo/src/'
def rd(p): return open(R+p).read()
class PErr(Exception):
    pass
class Panic(Exception): pass
def strlit(s):
    # Rust string literal body -> text
    s=re.sub(r'\\\n\s*','',s)
    s=s.replace('\\"','"')
    assert '\\' not in s,s
    return s
# error texts
err=rd('error.rs')
ET={}
for m in re.finditer(r'Self::(\w+) => write!\(\s*f,\s*"((?:[^"\\]|\\.|\\\n)*)"\s*\)',err,re.S):
    ET[m.group(1)]=strlit(m.group(2))
bm=re.search(r'Self::ByteCountIncorrect \{.*?write!\(\s*f,\s*"((?:[^"\\]|\\.|\\\n)*)"',err,re.S)
BCI=strlit(bm.group(1))
OT={}
for m in re.finditer(r'Ordering::(\w+) => "([^"]*)"',err): OT[m.group(1)]=m.group(2)
def bci(o,e,f):
    t=BCI
    for x in (OT[o],str(e),str(f)): t=t.replace('{}',x,1)
    return PErr(t)
def E(n): return PErr(ET[n])
# enums
STR=r'"((?:[^"\\]|\\.|\\\n)*)"'
ENUM={}
import glob
for f in glob.glob(R+'**/*.rs',recursive=True):
    t=open(f).read()
    t=t.split('#[cfg(test)]')[0] if not f.endswith('macros.rs') else ''
    for m in re.finditer(r'enum_(no_)?repr_(in)?fallible! \{(.*?)\n\}\n\}',t,re.S):
        body=m.group(3)
        h=re.search(r'pub enum (\w+): (&?\w+)(?:, ParseError, \{ \|_\| ParseError::(\w+) \})? \{',body)
        rows=[]
        rest=body[h.end():]
        for r in re.finditer(r'(\w+)\s*=\s*([^=]*?)\s*=>\s*'+STR+',',rest,re.S):
            pats=[p.strip() for p in r.group(2).split('|')]
            vals=[None if p=='_' else (p.strip('"') if p.startswith('"') else int(p.replace('_',''),0)) for p in pats]
            rows.append((r.group(1),vals,strlit(r.group(3))))
        n=len(re.findall(r'=>',rest)); assert n==len(rows),(h.group(1),n,len(rows))
        ENUM[h.group(1)]=(rows,h.group(3))
def enum_from(n,v):
    rows,e=ENUM[n]
    for (nm,vals,txt) in rows:
        if v in vals or None in vals: return (nm,v,txt)
    raise E(e)
# bitflags
BF={}
for f in glob.glob(R+'**/*.rs',recursive=True):
    t=open(f).read()
    if f.endswith('macros.rs'): continue
    t=t.split('#[cfg(test)]')[0]
    for m in re.finditer(r'bitflag_value! \{(.*?)\n\}\n\}',t,re.S):
        h=re.search(r'pub struct (\w+): (\d+) \{',m.group(1)); body=m.group(1)[h.end():]
        bytes_=[]
        for b in re.finditer(r'\n\t(\d+) \{(.*?)\n?\t?\}(?=\n|$)',body,re.S):
            fs=[]
            for r in re.finditer(r'pub (\w+): (\w+) =\s*(?:\((0b[01_]+) >> (\d+)\)|(0b[01_]+))\s*=>\s*(?:\((\w+), '+STR+r'\)|'+STR+'),',b.group(2),re.S):
                bits=int((r.group(3) or r.group(5)).replace('_',''),2)
                fs.append((r.group(1),r.group(2),bits,int(r.group(4)) if r.group(4) else None,r.group(6) or 'Normal',strlit(r.group(7) if r.group(6) else r.group(8))))
            assert len(fs)==len(re.findall('=>',b.group(2))),(h.group(1),b.group(1))
            assert int(b.group(1))==len(bytes_)
            bytes_.append(fs)
        assert len(bytes_)==int(h.group(2)),h.group(1)
        BF[h.group(1)]=bytes_
OPTTEXT={'OptionalCvMethod':('CvMethod',re.search(r'write!\(f, "(Unknown[^"]*)"',rd('emv/cv_rule/cv_method.rs')).group(1)),
 'OptionalCvmCondition':('CvmCondition',re.search(r'write!\(f, "(Unknown[^"]*)"',rd('emv/cv_rule/cvm_condition.rs')).group(1))}
def field_val(typ,x):
    if typ=='u8': return (x,str(x))
    if typ in OPTTEXT:
        en,u=OPTTEXT[typ]
        try:
            n,v,t=enum_from(en,x); return (v,t)
        except PErr: return (0,u)
    n,v,t=enum_from(typ,x); return (v,t)
def tz(b): return (b&-b).bit_length()-1
def ones(b):
    n=0
    while b&1: n+=1;b>>=1
    return n
class Bits: pass
def bf_parse(name,raw):
    lay=BF[name]
    if len(raw)!=len(lay): raise bci('Equal',len(lay),len(raw))
    bs=[]
    for i,fs in enumerate(lay):
        mask=0
        for f in fs: mask|=f[2]
        bs.append(raw[i]&mask)
    o=Bits(); o.n=len(lay); o.f={}; rep=[]; rng=[]
    for i,fs in enumerate(lay):
        b=0
        for (nm,typ,bits,sh,sev,txt) in fs:
            off=(bits.bit_length()-1)+(o.n-i-1)*8
            ln=ones(bits>>sh) if sh is not None else ones(bits>>tz(bits))
            if typ=='bool':
                v=bits&bs[i]>0 if False else (bits&bs[i])>0
                o.f[nm]=v
                if v: b|=bits; rng.append((off,ln,txt,sev))
            else:
                x=bits&bs[i]
                if sh is not None: x>>=sh
                v,t=field_val(typ,x)
                o.f[nm]=(v,t,x)
                b|=(v<<sh)&255 if sh is not None else v
                rng.append((off,ln,txt.replace('{}',t),sev))
        rep.append(b)
    o.rep=rep;o.rng=rng
    return o
class Out:
    def __init__(s): s.ev=[]
    def p(s,t): s.ev.append(('T',t))
    def c(s,x): s.ev.append(('C',x))
    def r(s): s.ev.append(('R',))
    def ser(s):
        o='' 
        for e in s.ev:
            if e[0]=='T': o+=e[1]
            elif e[0]=='C': o+='\x01'+e[1]+'\x02'
            else: o+='\x03'
        return o
H='bC'; B='b-'
def ind(o,i): o.p('\t'*i)
def inc(i):
    if i==255: raise Panic()
    return i+1
def disp_bits(o,v,i,sev):
    nb=v.n*8
    ind(o,i); o.c(B); first=True
    for b in v.rep:
        if first: first=False
        else: o.p(' ')
        for k in range(7,-1,-1): o.p('1' if b&(1<<k) else '0')
    o.p('\n'); o.r()
    arm=0; multi=False
    for (off,ln,t,s) in reversed(v.rng):
        arm|=1<<off
        if ln>1: multi=True
    if multi:
        cur=nb-1; ind(o,i)
        for (off,ln,t,s) in v.rng:
            for k in range(off,cur+1):
                if (k+1)%8==0 and k+1<nb: o.p(' ')
                if k!=off: o.p(' ')
            if ln>1: o.p('├'+'─'*(ln-2)+'┘')
            else: o.p('│')
            cur=off-ln if off>ln else 0
        o.p('\n')
    for (off,ln,t,s) in reversed(v.rng):
        ind(o,i)
        for k in range(1,nb-off):
            o.p('│' if arm&(1<<(nb-k)) else ' ')
            if (nb-k)%8==0: o.p(' ')
        o.p('└ ')
        o.c('-'+({'Normal':'-','Warning':'Y','Error':'R'}[s] if sev else '-'))
        o.p(t+'\n'); o.r()
WS=set([9,10,11,12,13,32,0x85,0xA0,0x1680,0x2028,0x2029,0x202F,0x205F,0x3000]+list(range(0x2000,0x200B)))
def u16(s):
    while s and ord(s[0]) in WS: s=s[1:]
    while s and ord(s[-1]) in WS: s=s[:-1]
    if s.startswith('+'): s=s[1:]
    if not s or any(c not in '0123456789' for c in s): raise E('InvalidNumber')
    n=int(s)
    if n>65535: raise E('InvalidNumber')
    return n
def parse_hex(s):
    d=[int(c,16) for c in s if c in '0123456789abcdefABCDEF']
    return bytes(d[i]*16+d[i+1] for i in range(0,len(d)-1,2))
def hex_strict(s):
    if any(c not in '0123456789abcdefABCDEF' for c in s): raise E('InvalidBytes')
    return parse_hex(s)
TAGS={}
pe=rd('emv/tlv_parsing/process_emv_tag.rs')
for m in re.finditer(r'\[((?:0x..(?:, )?)+)\] => Some\("([^"]*)"\)',pe):
    TAGS[bytes(int(x,16) for x in m.group(1).split(', '))]=m.group(2)
def meta(b): return (b>>6, bool(b&0x20))
def masked(seq,masks):
    if len(seq)<2: return False
    return any(all(c==m for c in seq) for m in masks)
def ber(bs,masks):
    n=len(bs);nodes=[];i=0
    while i<n:
        st=i;t0=bs[i];cl,con=meta(t0)
        cont=t0&0x1f==0x1f
        while cont:
            i+=1
            if i>=n: raise E('NonCompliant')
            cont=bs[i]&0x80>0 if False else (bs[i]&0x80)>0
        te=i;i+=1
        if i>=n: raise E('NonCompliant')
        l0=bs[i]
        if l0&0x80:
            k=l0&0x7f
            if k>4: raise E('Unsupported')
            s=i;i+=1+k
            if i>=n: raise E('NonCompliant')
            ln=int.from_bytes(bs[s+1:s+k+1],'big')
        else:
            i+=1;ln=l0
        if i+ln>=n+1: raise E('NonCompliant')
        data=bs[i:i+ln]
        d=None if masked([chr(b) for b in data],masks) else data
        nodes.append((bs[st:te+1],d,child(con,d,masks)))
        i+=ln
    return nodes
def child(con,d,masks):
    if con and d is not None:
        try: return ber(d,masks)
        except PErr: return []
    return []
def ing(s,masks):
    if any(ord(c)>127 for c in s): raise E('NonCompliant')
    n=len(s);nodes=[];i=0
    while i<n:
        ty=s[i];i+=1
        if i>=n: raise E('NonCompliant')
        c=s.find(':',i)
        if c<0: raise E('NonCompliant')
        try: tag=hex_strict(s[i:c])
        except PErr: raise E('NonCompliant')
        while len(tag)>1 and tag[0]==0: tag=tag[1:]
        i=c+1
        if i>=n or not tag: raise E('NonCompliant')
        cl,con=meta(tag[0])
        c=s.find(':',i)
        if c<0: raise E('NonCompliant')
        try: lb=hex_strict(s[i:c])
        except PErr: raise E('NonCompliant')
        if len(lb)>4: raise E('Unsupported')
        ln=int.from_bytes(lb,'big')
        i=c+1
        if i>=n: raise E('NonCompliant')
        f=s[i]
        if f=='a':
            i+=1
            if i+ln>n: raise E('NonCompliant')
            v=s[i:i+ln];i+=ln
            d=None if masked(v,masks) else v.encode()
        elif f=='h':
            i+=1
            if i+2*ln>n: raise E('NonCompliant')
            v=s[i:i+2*ln];i+=2*ln
            if masked(v,masks): d=None
            else:
                try: d=hex_strict(v)
                except PErr: raise E('NonCompliant')
        else: raise E('NonCompliant')
        i+=1
        if ty!='T': continue
        nodes.append((tag,d,child(con,d,masks)))
    return nodes
def auto(s,masks):
    if s=='': raise E('Unrecognised')
    try: return ('Ingenico',ing(s,masks))
    except PErr: pass
    try: return ('BER-TLV',ber(parse_hex(s),masks))
    except PErr: pass
    raise E('Unrecognised')
# values
def sc_num(n):
    if n>999: raise E('InvalidNumber')
    a,b,c=n%1000//100,n%100//10,n%10
    return (n,enum_from('Interchange',a)[2],enum_from('Technology',a)[2],enum_from('AuthorisationProcessing',b)[2],enum_from('AllowedServices',c)[2],enum_from('PinRequirements',c)[2])
def sc_bytes(b):
    if len(b)!=2: raise bci('Equal',2,len(b))
    return sc_num(u16(b.hex().upper()))
def d_sc(o,v,i):
    n,inter,tech,au,al,pin=v
    ind(o,i);o.c(B);o.p(f'{n:03d}\n');o.r()
    for pre,nm,sp,x in (('││├ ','Allowed Services:','         ',al),('││└ ','PIN Requirements:','         ',pin),('│└─ ','Authorisation Processing:',' ',au),('├── ','Interchange:','              ',inter),('└── ','Technology:','               ',tech)):
        ind(o,i);o.p(pre);o.c(B);o.p(nm);o.r();o.p(sp+x+'\n')
def d_text(o,v,i): ind(o,i);o.p(v[2]+'\n')
def arc(b):
    if len(b)!=2: raise bci('Equal',2,len(b))
    try: s=b.decode('utf-8')
    except UnicodeDecodeError: raise E('InvalidNumber')
    return enum_from('AuthorisationResponseCode',s)
def e1(n):
    def f(b):
        if len(b)!=1: raise bci('Equal',1,len(b))
        return enum_from(n,b[0])
    return f
def cvmlist(b):
    if len(b)<8: raise bci('Greater',8,len(b))
    if (len(b)-8)%2: raise E('ByteCountNotDivisibleIntoComponents')
    return (int.from_bytes(b[:4],'big'),int.from_bytes(b[4:8],'big'),[bf_parse('CardholderVerificationRule',b[k:k+2]) for k in range(8,len(b),2)])
def d_cvmlist(o,v,i):
    x,y,rs=v
    # references: recorded raw code and recognised
    def refs(r):
        val,t,raw=r.f['condition']
        return t!=OPTTEXT['OptionalCvmCondition'][1] and enum_from('CvmCondition',raw)[0] in ('InApplicationCurrencyUnderX','InApplicationCurrencyOverX','InApplicationCurrencyUnderY','InApplicationCurrencyOverY')
    if x or y or any(refs(r) for r in rs):
        w=max(len(str(x)),len(str(y)),3)
        ind(o,i);o.c(H);o.p('X Value:');o.r();o.p(' '+str(x).rjust(w,'0')+' (implicit decimal point based on application currency)\n')
        ind(o,i);o.c(H);o.p('Y Value:');o.r();o.p(' '+str(y).rjust(w,'0')+'\n')
    ind(o,i);o.c(H);o.p('Cardholder Verification Rules:\n');o.r()
    for k,r in enumerate(rs):
        ind(o,i);o.c(B);o.p(f'CVM {k+1}:\n');o.r()
        ind(o,inc(i));o.c(B);o.p('Method:         ');o.r();o.p(' '+r.f['method'][1]+'\n')
        ind(o,inc(i));o.c(B);o.p('Condition:      ');o.r();o.p(' '+r.f['condition'][1]+'\n')
        ind(o,inc(i));o.c(B);o.p('If Unsuccessful:');o.r();o.p(' '+('Next CVM' if r.f['continue_if_unsuccessful'] else 'Fail')+'\n')
def cvmres(raw):
    if len(raw)!=3: raise bci('Equal',3,len(raw))
    b=bytes([raw[0]&0x7f,raw[1],raw[2]])
    r=bf_parse('CardholderVerificationRule',b[:2])
    nm,v,t=enum_from('CvmResult',b[2])
    o=Bits();o.n=3;o.rep=r.rep+[v]
    o.rng=[(a+8,l,x,s) for (a,l,x,s) in r.rng]+[(7,8,'Result: '+t,'Error' if nm=='Failed' else 'Normal')]
    return o
def iad(b):
    if len(b)!=32: raise E('NonCcdCompliant')
    if b[0]!=15 or b[16]!=15: raise E('NonCcdCompliant')
    cci=bf_parse('CommonCoreIdentifier',b[1:2])
    return (cci,b[2],bf_parse('CardVerificationResults',b[3:8]),b[8:16],b[17:32])
def pbytes(o,b,i):
    for k in range(0,len(b),16):
        ind(o,i);o.p(' '.join(f'{x:02X}' for x in b[k:k+16])+'\n')
def d_iad(o,v,i,s):
    cci,dki,cvr,cnt,idd=v
    ind(o,i);o.c(H);o.p('Common Core Identifier:\n');o.r();disp_bits(o,cci,inc(i),s)
    ind(o,i);o.c(H);o.p('Derivation Key Index:');o.r();o.p(f' 0x{dki:02X}\n')
    ind(o,i);o.c(H);o.p('Card Verification Results:\n');o.r();disp_bits(o,cvr,inc(i),s)
    ind(o,i);o.c(H);o.p('Counters: (Payment System-Specific)\n');o.r();pbytes(o,cnt,inc(i))
    ind(o,i);o.c(H);o.p('Issuer-Discretionary Data\n');o.r();pbytes(o,idd,inc(i))
IAC={}
for f in ('default','denial','online'):
    IAC[f]=strlit(re.search(r'println!\(\s*'+STR+r'\s*\)',rd('emv/iac/%s.rs'%f),re.S).group(1))
def iac(k):
    def d(o,v,i,s):
        ind(o,i);o.c(H);o.p(IAC[k]+'\n');o.r();disp_bits(o,v,i,False)
    return d
def bfp(n): return lambda b: bf_parse(n,b)
ns=lambda f: (lambda o,v,i,s: f(o,v,i))
PARSE={
 '5F30':(sc_bytes,ns(d_sc),None,None),
 '8A':(arc,ns(d_text),'Authorisation Response Code (Unrecognised - likely payment system-specific)','Unrecognised'),
 '8E':(cvmlist,ns(d_cvmlist),None,None),
 '95':(bfp('TerminalVerificationResults'),disp_bits,None,None),
 '9B':(bfp('TransactionStatusInformation'),disp_bits,None,None),
 '9C':(e1('TransactionType'),ns(d_text),'Transaction Type (Unrecognised - likely payment system-specific)','Unrecognised'),
 '9F0D':(bfp('TerminalVerificationResults'),iac('default'),None,None),
 '9F0E':(bfp('TerminalVerificationResults'),iac('denial'),None,None),
 '9F0F':(bfp('TerminalVerificationResults'),iac('online'),None,None),
 '9F10':(iad,d_iad,'Issuer Application Data (Not CCD-Compliant)','NonCcdCompliant'),
 '9F33':(bfp('TerminalCapabilities'),disp_bits,None,None),
 '9F34':(cvmres,disp_bits,None,None),
 '9F35':(e1('TerminalType'),ns(d_text),None,None),
 '9F39':(e1('PosEntryMode'),ns(d_text),None,None),
 '9F40':(bfp('AdditionalTerminalCapabilities'),disp_bits,None,None),
}
def process(nodes):
    r=[]
    for tag,d,ch in nodes:
        nm=TAGS.get(tag); k=tag.hex().upper(); pv=None
        if nm is not None and k in PARSE and d is not None:
            pf,df,un,ue=PARSE[k]
            try: pv=(df,pf(d))
            except PErr as e:
                if ue is not None and e.args[0]==ET[ue]: nm=un
                else: raise
        r.append((tag,d,nm,pv,process(ch)))
    return r
def sort(nodes):
    return [(t,d,n,p,sort(c)) for t,d,n,p,c in sorted(nodes,key=lambda x:x[0])]
def pretty(o,b,i):
    for k in range(0,len(b),16):
        l=b[k:k+16]
        ind(o,i);o.p(' '.join(f'{x:02X}' for x in l)+'   '*(16-len(l))+'  '+''.join(chr(x) if 0x20<=x<=0x7e else '.' for x in l)+'\n')
def d_block(o,nodes,i,s):
    first=True
    for tag,d,nm,pv,ch in nodes:
        if first: first=False
        else: o.p('\n')
        ind(o,i);o.c(H);o.p('Tag:');o.r();o.p(' 0x');o.c(B);o.p(tag.hex().upper());o.r()
        n='<Unknown>' if nm is None else nm
        if d is None: o.p(' - ?? bytes - '+n+'\n')
        else: o.p(f" - {len(d)} byte{'' if len(d)==1 else 's'} - {n}\n")
        if d is None: ind(o,i);o.c(H);o.p('* Masked *\n');o.r()
        elif d: ind(o,i);o.c(H);o.p('Raw:\n');o.r();pretty(o,d,inc(i))
        if pv is not None:
            ind(o,i);o.c(H);o.p('Parsed:\n');o.r();pv[0](o,pv[1],inc(i),s)
        if ch:
            ind(o,i);o.c(H);o.p("Constructed Data Object's Child Tags:\n");o.r();d_block(o,ch,inc(i),s)
CLASS=[r[2] for r in ENUM['TagClass'][0]]
def d_ident(o,tag):
    if len(tag)<1: raise bci('Greater',1,0)
    nm=TAGS.get(tag,'<Unknown>');cl,con=meta(tag[0])
    o.c(H);o.p('Name:');o.r();o.p('             '+nm+'\n')
    o.c(H);o.p('Tag:');o.r();o.p('              0x');o.c(B);o.p(tag.hex().upper());o.r();o.p('\n')
    o.c(H);o.p('Class:');o.r();o.p('            '+CLASS[cl]+'\n')
    o.c(H);o.p('Data Object Type:');o.r();o.p(' '+('Constructed' if con else 'Primitive')+'\n')
def run(op,s,masks,srt):
    """-> (serialised stdout, stderr or None, panicked)"""
    o=Out();er=None;pn=False
    try:
        if op=='tvr': disp_bits(o,bf_parse('TerminalVerificationResults',parse_hex(s)),0,True)
        elif op=='ccdIad': d_iad(o,iad(parse_hex(s)),0,True)
        elif op=='ccdCvr': disp_bits(o,bf_parse('CardVerificationResults',parse_hex(s)),0,True)
        elif op=='tsi': disp_bits(o,bf_parse('TransactionStatusInformation',parse_hex(s)),0,True)
        elif op=='cvmResults': disp_bits(o,cvmres(parse_hex(s)),0,True)
        elif op=='cvmList': d_cvmlist(o,cvmlist(parse_hex(s)),0)
        elif op=='identify': d_ident(o,parse_hex(s))
        elif op=='autoTlv':
            f,b=auto(s,masks);b=process(b)
            o.c(H);o.p('TLV Format: ');o.r();o.p(f+'\n');o.p('\n')
            if srt:b=sort(b)
            d_block(o,b,0,True)
        elif op in('berTlv','ingenicoTlv'):
            b=process(ber(parse_hex(s),masks) if op=='berTlv' else ing(s,masks))
            if srt:b=sort(b)
            d_block(o,b,0,True)
        elif op=='serviceCode': d_sc(o,sc_num(u16(s)),0)
    except PErr as e: er=e.args[0]+'\n'
    except Panic: pn=True
    return (o.ser(),er,pn)
