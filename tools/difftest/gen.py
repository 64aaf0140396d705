import random, re, datetime, json, io
from fractions import Fraction
random.seed(7)
cases=[]  # (op, args list of strings, expected string)
def enc(s): return ' '.join(str(ord(c)) for c in s)
def add(op,args,exp): cases.append((op,args,exp))
SP=' \t\n\r\x0b\x0c\x1c\x1d\x1e\x1f\x85\xa0'
def rs(alph,n): return ''.join(random.choice(alph) for _ in range(random.randint(0,n)))
def isascii_num(s): return all(ord(c)<128 or c in SP for c in s)
for _ in range(3000):
    s=rs('0123456789+-_ .eE\n',7)
    try: e='ok %d'%int(s)
    except ValueError: e='err'
    add('int',[s],e)
for _ in range(6000):
    s=rs('0123456789+-_ .eEinfaINFDd\t',9)
    if random.random()<.5:
        s=rs(' +-',2)+rs('0123456789_',6)+random.choice(['','.'])+rs('0123456789_',5)+random.choice(['','e','E'])+rs('+-',1)+rs('0123456789',2)+rs(' \n',1)
    if random.random()<.1: s=random.choice(['inf','-inf','+Infinity',' nan','NaN','-nan','infinit','in','INFINITY ','1_0.5_0','1__0','_1','1_','1._5','1e1_0','1e_1','.','.e5','e5','5.','.5','1e','1e+','0x10','1_000.0'])
    try:
        f=float(s)
        if f!=f: e='nan'
        elif f in (float('inf'),-float('inf')): e=('inf' if f>0 else '-inf')
        else: e='%d/%d'%Fraction(f).as_integer_ratio()
    except ValueError: e='err'
    # skip overflow/underflow
    add('float',[s],e)
for _ in range(1500):
    s=rs('ab1'+SP,8)
    add('strip',[s],enc(s.strip())); add('rstrip',[s],enc(s.rstrip())); add('isspace',[s],str(s.isspace()))
    add('split',[s],'|'.join(enc(x) for x in s.split()))
    t=rs('ab,',8); add('splitc',[t],'|'.join(enc(x) for x in t.split(',')))
    u=rs('aAzZ{[@`1 ',8); add('upper',[u],enc(u.upper())); add('lower',[u],enc(u.lower()))
    n=rs('ab',2); add('in',[n,t],str(n in t))
    b=bytes(random.choice([10,13,65,66,128,200,127]) for _ in range(random.randint(0,8)))
    add('ascii',[b.decode('latin1')],enc(b.decode('ascii','ignore')))
    x=rs('a\r\n',8)
    lines=list(io.TextIOWrapper(io.BytesIO(x.encode()),encoding='ascii'))
    add('lines',[x],'|'.join(enc(l) for l in lines))
    z=rs('12',5); w=random.randint(0,6); add('zfill',[z,str(w)],enc(z.zfill(w)))
for _ in range(4000):
    x=random.choice([random.uniform(-1e8,1e8),random.uniform(-1,1),random.randint(-4000,4000)/8,random.randint(-100,100)/16,float(random.randint(-9999,9999))])
    if x==0: x=0.0
    sp=random.choice(['',' ']); w=random.randint(1,20); p=random.choice([None,0,1,2,3,5,12])
    spec='%s%d%sf'%(sp,w,'' if p is None else '.%d'%p)
    n,d=Fraction(x).as_integer_ratio()
    add('fmtf',[spec,str(n),str(d)],enc(format(x,spec)))
    i=random.randint(-10**random.randint(1,9),10**random.randint(1,9)); spec='%s%dd'%(sp,w)
    add('fmtd',[spec,str(i)],enc(format(i,spec)))
    add('fmtfi',['%s%d%sf'%(sp,w,'' if p is None else '.%d'%p),str(i)],enc(format(i,'%s%d%sf'%(sp,w,'' if p is None else '.%d'%p))))
    add('round',[str(n),str(d)],str(round(x)))
    add('trunc',[str(n),str(d)],str(int(x)))
    k=random.randint(0,4); q=Fraction(random.randint(-99999,99999),random.choice([1,2,3,7,8,10,16,1000]))
    add('roundq',[str(q.numerator),str(q.denominator)],str(round(q)))
# double
import decimal
for _ in range(4000):
    q=Fraction(random.randint(-10**random.randint(1,25),10**random.randint(1,25)),random.randint(1,10**random.randint(1,25)))
    f=q.numerator/q.denominator
    add('double',[str(q.numerator),str(q.denominator)],'%d/%d'%Fraction(f).as_integer_ratio())
def dts(t): return '%d %d %d %d %d %d %d'%(t.year,t.month,t.day,t.hour,t.minute,t.second,t.microsecond)
for _ in range(3000):
    a=[random.choice([0,1,4,99,100,400,1900,1999,2000,2004,2016,2017,9999,10000,2**31]),random.randint(0,13),random.randint(0,32),random.randint(-1,24),random.randint(-1,60),random.randint(-1,60),random.choice([0,5,999999,1000000,-1])]
    a=a[:random.randint(2,7)]
    try: e='ok '+dts(datetime.datetime(*a))
    except ValueError: e='value'
    except OverflowError: e='overflow'
    except TypeError: e='type'
    add('dt',[' '.join(map(str,a))],e)
    t=datetime.datetime(random.randint(1,9999),random.randint(1,12),random.randint(1,28),random.randint(0,23),random.randint(0,59),random.randint(0,59),random.randint(0,999999))
    d=random.randint(-10**random.randint(1,17),10**random.randint(1,17))
    try: e='ok '+dts(t+datetime.timedelta(microseconds=d))
    except OverflowError: e='overflow'
    add('add',[dts(t),str(d)],e)
    t2=datetime.datetime(random.randint(1,9999),random.randint(1,12),random.randint(1,28),random.randint(0,23),random.randint(0,59),random.randint(0,59),random.randint(0,999999))
    add('sub',[dts(t),dts(t2)],str((t-t2)//datetime.timedelta(microseconds=1)))
    add('ord',['%d %d %d'%(t.year,t.month,t.day)],str(t.toordinal()))
    o=random.randint(1,3652059); z=datetime.date.fromordinal(o); add('ofo',[str(o)],'%d %d %d'%(z.year,z.month,z.day))
# regexes
RE_VER = re.compile(r'^\s*(\d+\.?\d*).*RINEX VERSION / TYPE$', re.I)
RE_MODERN=re.compile(r'^(\w{4})\w{5}_[RSU]_(\d{4})(\d{3})\d{4}', re.I)
RE_CLASSIC=re.compile(r'^(\w{4})(\d{3})\w{1,3}\.(\d{2})([odnmglphbc])',re.I)
RE_Z = re.compile(r'(.*)\.(z|gz)$', re.I)
RE_CRX = re.compile(r'(.*)\.(\d{2}d|crx)', re.I)
RE_RNX = re.compile(r'(.*)\.(\d{2}o|rnx)', re.I)
def m(r,s):
    x=r.match(s)
    return 'none' if not x else '|'.join([enc(x.group(0))]+[enc(g) for g in x.groups()])
for _ in range(2500):
    s=rs(' \t',2)+rs('12.',5)+rs(' aRX\n',4)+random.choice(['RINEX VERSION / TYPE','rinex version / TYPE','RINEX VERSION'])+random.choice(['','\n','\n\n',' '])
    add('ver',[s],m(RE_VER,s))
    s=rs('a1_A',9)+random.choice(['_','-'])+random.choice('RSUrx')+'_'+rs('0123',11)
    if random.random()<.6: s=''.join(random.choice('aB1_') for _ in range(9))+'_'+random.choice('RSUrx')+'_'+''.join(random.choice('0123456789') for _ in range(random.randint(10,12)))+rs('_a1',3)
    add('modern',[s],m(RE_MODERN,s))
    s=''.join(random.choice('aB1_') for _ in range(random.randint(3,5)))+''.join(random.choice('01') for _ in range(random.randint(2,4)))+rs('a1',4)+'.'+''.join(random.choice('01a') for _ in range(2))+random.choice('odnmglphbcxOD')+rs('.z',2)
    add('classic',[s],m(RE_CLASSIC,s))
    s=rs('a.1zgdoD\n/',8)+random.choice(['.z','.gz','.17d','.crx','.17o','.rnx','.17O.Z','.gZ\n','.z\n\n'])+rs('a.z',2)
    add('rez',[s],m(RE_Z,s)); add('recrx',[s],m(RE_CRX,s)); add('rernx',[s],m(RE_RNX,s))
from string import Template
ARCH = r'\.z|\.gz'; CRD='.xyz'
obs_ext=r'({}|)$'.format(ARCH)
tmpl=Template('{min}$ext|{day}$ext|{modern}$ext'.format(min=r'^\w{4}\d{3}[a-x](00|15|30|45)\.\d{2}[od]',day=r'^\w{4}\d{3}\w\.\d{2}[od]',modern=r'\w{9}_[RSU]_\d{11}_\w{3}_\w{3}_\wo\.(crx|rnx)'))
RO=re.compile(tmpl.substitute(ext=obs_ext),re.I); RX=re.compile(tmpl.substitute(ext=CRD),re.I); RW=re.compile('('+tmpl.substitute(ext='')+')',re.I)
def mut(s):
    s=list(s)
    for _ in range(random.choice([0,0,0,1,2])):
        i=random.randrange(len(s)); s[i]=random.choice('aX0_.zR9')
    return ''.join(s)
for _ in range(4000):
    b=random.choice(['abcd','AB1_'])+random.choice(['001','365'])
    s=random.choice([b+random.choice(['a','x','y','0'])+random.choice(['00','15','30','45','10'])+'.17'+random.choice('odOD'),b+random.choice('0aZ')+'.17'+random.choice('odnO'),
      'IRKJ00RUS_'+random.choice('RSUx')+'_20170010000_01D_30S_'+random.choice(['MO','GO','MN'])+random.choice(['.rnx','.crx'])])
    s=mut(s)+random.choice(['','.z','.gz','.Z','.xyz','zxyz','.gz\n','.xyz.z'])
    add('obs',[s],str(bool(RO.match(s)))); add('xyz',[s],str(bool(RX.match(s))))
    x=RW.match(s); add('woext',[s],'none' if not x else enc(x.group(1)))
    t=datetime.datetime(random.choice([1999,2000,2017,2068]),random.randint(1,12),random.randint(1,28))
    sy=random.choice('GRSEMC')
    nav_id={'G':'n','R':'g','S':'h','E':'l','M':'p'}
    mod=('^(\\w{{4}})' '\\w{{5}}' '_\\w_' '{year}{day}\\d{{4}}' '_\\w{{3}}' '(_\\w{{3}})?' '_{system}N\\.rnx').format(year=t.strftime('%Y'),day=t.strftime('%j'),system=sy)
    if sy in nav_id:
        st=r'^(\w{{4}}){day}\w\.{year}{system}'.format(day=t.strftime('%j'),year=t.strftime('%y'),system=nav_id[sy])+' | '+mod
    else: st=mod
    rn=re.compile(st,re.I|re.X)
    n=random.choice(['brdc%s0.%s%s'%(t.strftime('%j'),t.strftime('%y'),random.choice('nghlpNx')),'BRDC00IGS_R_%s0000_01D%s_%sN.rnx'%(t.strftime('%Y%j'),random.choice(['','_30S','_1']),random.choice('GRSEMC'))])
    n=mut(n)+random.choice(['','.gz'])
    add('nav',[n,'%d %d %d 0 0 0 0'%(t.year,t.month,t.day),sy],str(bool(rn.match(n))))
    d=random.choice(['%04d-%02d-%02d'%(random.choice([1,1999,2016,2017,2020]),random.randint(0,13),random.randint(0,32)),'%d-%d-%d'%(random.randint(990,2100),random.randint(0,13),random.randint(0,32)),'2017-02-29','2016-02-29'])
    h=random.choice(['%02d:%02d:%02d'%(random.randint(0,25),random.randint(0,61),random.randint(0,62)),'%d:%d:%d'%(random.randint(0,25),random.randint(0,61),random.randint(0,62))])
    if random.random()<.1: h=h.replace(':',random.choice([' ','',':: ']))
    try: e='ok '+dts(datetime.datetime.strptime(d+h,'%Y-%m-%d%H:%M:%S'))
    except ValueError: e='value'
    add('strptime',[d+h],e)
    r=rs('a1 \t#',8); add('respl',[r],'|'.join(enc(x) for x in re.split(r'\s+',r)))
    add('comment',[r],str(bool(re.match(r'^\s*#.*',r))))
    add('dirlist',[rs('a ,',7)],None); a=cases[-1]; cases[-1]=('dirlist',a[1],'|'.join(enc(x.strip()) for x in a[1][0].split(',')))
    add('quoted',[r2:=rs('\'\"a\n',5)],str(bool(re.match(r"['\\\"](.*)['\\\"]".replace('\\\\',''),r2))))
    c=rs('a=# \n',7).rstrip(); add('dropc',[c],enc(re.sub(r'#.*','',c)))
    add('rmsp',[c],enc(re.sub(r'\s+','',c)))
with open('cases.txt','w') as f, open('exp.txt','w') as g:
    for op,a,e in cases:
        f.write(op+'\t'+'\t'.join(enc(x) for x in a)+'\n'); g.write(e+'\n')
print(len(cases))
