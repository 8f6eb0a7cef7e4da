#include <stdio.h>
#include <stdlib.h>
#include <string.h>
#include <stdint.h>
typedef uint8_t u8; typedef uint32_t u32; typedef uint64_t u64;
static const u64 RC[24]={0x1ULL,0x8082ULL,0x800000000000808aULL,0x8000000080008000ULL,0x808bULL,0x80000001ULL,0x8000000080008081ULL,0x8000000000008009ULL,0x8aULL,0x88ULL,0x80008009ULL,0x8000000aULL,0x8000808bULL,0x800000000000008bULL,0x8000000000008089ULL,0x8000000000008003ULL,0x8000000000008002ULL,0x8000000000000080ULL,0x800aULL,0x800000008000000aULL,0x8000000080008081ULL,0x8000000000008080ULL,0x80000001ULL,0x8000000080008008ULL};
static const int R[25]={0,1,62,28,27,36,44,6,55,20,3,10,43,25,39,41,45,15,21,8,18,2,61,56,14};
#define F(name,T,W,NR) static void name(T*s){for(int r=0;r<NR;r++){T C[5],D[5],B[25];for(int x=0;x<5;x++)C[x]=s[x]^s[x+5]^s[x+10]^s[x+15]^s[x+20];\
for(int x=0;x<5;x++){T c=C[(x+1)%5];D[x]=C[(x+4)%5]^(T)((c<<1)|(c>>(W-1)));}\
for(int i=0;i<25;i++)s[i]^=D[i%5];\
for(int x=0;x<5;x++)for(int y=0;y<5;y++){T v=s[x+5*y];int k=R[x+5*y]%W;B[y+5*((2*x+3*y)%5)]=k?(T)((v<<k)|(v>>(W-k))):v;}\
for(int x=0;x<5;x++)for(int y=0;y<5;y++)s[x+5*y]=B[x+5*y]^((~B[(x+1)%5+5*y])&B[(x+2)%5+5*y]);\
s[0]^=(T)RC[r];}}
F(f1600,u64,64,24)
F(f800,u32,32,22)
static void keccak(u8*out,int n,const u8*in,size_t len){u64 s[25]={0};int rate=200-2*n;u8*b=(u8*)s;size_t p=0;for(size_t i=0;i<len;i++){b[p++]^=in[i];if(p==rate){f1600(s);p=0;}}b[p]^=1;b[rate-1]^=0x80;f1600(s);memcpy(out,b,n);}
#define FNV(a,b) (((u32)(a)*0x01000193u)^(u32)(b))
#define FNV1A(a,b) (((u32)(a)^(u32)(b))*0x01000193u)
static u8*cache;static u32 rows;static int parents;
static void gencache(u64 size,const u8*seed){rows=size/64;cache=malloc(size);keccak(cache,64,seed,32);for(u32 i=1;i<rows;i++)keccak(cache+64*i,64,cache+64*(i-1),64);
for(int r=0;r<3;r++)for(u32 j=0;j<rows;j++){u8 t[64];u8*a=cache+64ull*((j+rows-1)%rows),*b=cache+64ull*(*(u32*)(cache+64ull*j)%rows);for(int k=0;k<64;k++)t[k]=a[k]^b[k];keccak(cache+64ull*j,64,t,64);}}
static void item(u32 idx,u32*out){u8 m[64];memcpy(m,cache+64ull*(idx%rows),64);*(u32*)m^=idx;keccak(m,64,m,64);u32*w=(u32*)m;for(int i=0;i<parents;i++){u32 p=FNV(idx^i,w[i%16])%rows;u32*c=(u32*)(cache+64ull*p);for(int k=0;k<16;k++)w[k]=FNV(w[k],c[k]);}keccak(m,64,m,64);memcpy(out,m,64);}
static void hex(const void*p,int n){for(int i=0;i<n;i++)printf("%02x",((u8*)p)[i]);}
static void emit(u32 idx,u32*w,int n){printf("item %u ",idx);hex(w,4*n);printf("\n");}
static void unhex(const char*s,u8*o){for(int i=0;i<32;i++){unsigned v;sscanf(s+2*i,"%2x",&v);o[i]=v;}}
/* ethash */
static void ethash(u8*h,u64 nonce,u64 size){u8 s[64],b[40];memcpy(b,h,32);memcpy(b+32,&nonce,8);keccak(s,64,b,40);u32 mix[32];memcpy(mix,s,64);memcpy(mix+16,s,64);u32 n=size/128;
for(int i=0;i<64;i++){u32 p=FNV(i^*(u32*)s,mix[i%32])%n;u32 t[32];item(2*p,t);item(2*p+1,t+16);emit(2*p,t,16);emit(2*p+1,t+16,16);for(int k=0;k<32;k++)mix[k]=FNV(mix[k],t[k]);}
u8 f[96];memcpy(f,s,64);for(int i=0;i<8;i++){u32 v=FNV(FNV(FNV(mix[4*i],mix[4*i+1]),mix[4*i+2]),mix[4*i+3]);memcpy(f+64+4*i,&v,4);}printf("mix ");hex(f+64,32);u8 d[32];keccak(d,32,f,96);printf("\ndigest ");hex(d,32);printf("\n");}
/* progpow */
typedef struct{u32 z,w,jsr,jcong;}K;
static u32 kiss(K*k){k->z=36969*(k->z&65535)+(k->z>>16);k->w=18000*(k->w&65535)+(k->w>>16);k->jcong=69069*k->jcong+1234567;k->jsr^=k->jsr<<17;k->jsr^=k->jsr>>13;k->jsr^=k->jsr<<5;return (((k->z<<16)+k->w)^k->jcong)+k->jsr;}
static u32 rl(u32 a,u32 n){n&=31;return n?(a<<n)|(a>>(32-n)):a;}static u32 rr(u32 a,u32 n){return rl(a,32-(n&31));}
static u32 math(u32 a,u32 b,u32 s){switch(s%11){case 0:return a+b;case 1:return a*b;case 2:return ((u64)a*b)>>32;case 3:return a<b?a:b;case 4:return rl(a,b);case 5:return rr(a,b);case 6:return a&b;case 7:return a|b;case 8:return a^b;case 9:return (a?__builtin_clz(a):32)+(b?__builtin_clz(b):32);default:return __builtin_popcount(a)+__builtin_popcount(b);}}
static u32 merge(u32 a,u32 b,u32 s){u32 x=((s>>16)%31)+1;switch(s%4){case 0:return a*33+b;case 1:return (a^b)*33;case 2:return rl(a,x)^b;default:return rr(a,x)^b;}}
static void progpow(u64 prog,u64 seed,u64 size,u32*l1,u32*out){static u32 mix[16][32];u32 z=FNV1A(0x811c9dc5u,(u32)seed),w=FNV1A(z,seed>>32);for(int l=0;l<16;l++){u32 jsr=FNV1A(w,l),jc=FNV1A(jsr,l);K k={z,w,jsr,jc};for(int r=0;r<32;r++)mix[l][r]=kiss(&k);}
u32 n=size/256;
for(int r=0;r<64;r++){z=FNV1A(0x811c9dc5u,(u32)prog);w=FNV1A(z,prog>>32);u32 jsr=FNV1A(w,(u32)prog),jc=FNV1A(jsr,prog>>32);K k={z,w,jsr,jc};u32 D[32],S[32],dc=0,sc=0;for(int i=0;i<32;i++)D[i]=S[i]=i;
for(int i=31;i>0;i--){u32 j=kiss(&k)%(i+1),t=D[i];D[i]=D[j];D[j]=t;j=kiss(&k)%(i+1);t=S[i];S[i]=S[j];S[j]=t;}
u32 idx=mix[r%16][0]%n;u32 it[64];for(int q=0;q<4;q++)item(4*idx+q,it+16*q);emit(idx,it,64);
for(int i=0;i<18;i++){if(i<11){u32 s=S[sc++%32],d=D[dc++%32],sel=kiss(&k);for(int l=0;l<16;l++)mix[l][d]=merge(mix[l][d],l1[mix[l][s]%4096],sel);}
u32 sr=kiss(&k)%(32*31);u32 s1=sr%32,s2=sr/32;if(s2>=s1)s2++;u32 e1=kiss(&k),d=D[dc++%32],e2=kiss(&k);for(int l=0;l<16;l++)mix[l][d]=merge(mix[l][d],math(mix[l][s1],mix[l][s2],e1),e2);}
u32 ds[4],ss[4];for(int i=0;i<4;i++){ds[i]=i?D[dc++%32]:0;ss[i]=kiss(&k);}
for(int l=0;l<16;l++)for(int i=0;i<4;i++)mix[l][ds[i]]=merge(mix[l][ds[i]],it[((l^r)%16)*4+i],ss[i]);}
for(int i=0;i<8;i++)out[i]=0x811c9dc5u;for(int l=0;l<16;l++){u32 h=0x811c9dc5u;for(int i=0;i<32;i++)h=FNV1A(h,mix[l][i]);out[l%8]=FNV1A(out[l%8],h);}}
static const u32 RVN[15]={0x72,0x41,0x56,0x45,0x4e,0x43,0x4f,0x49,0x4e,0x4b,0x41,0x57,0x50,0x4f,0x57};
static void kaw(int firo,u8*h,u64 height,u64 nonce,u64 size){u32 l1[4096];for(int i=0;i<256;i++)item(i,l1+16*i);printf("l1 ");hex(l1,16384);printf("\n");u32 s[25]={0};memcpy(s,h,32);s[8]=nonce;s[9]=nonce>>32;if(firo){s[10]=1;s[18]=0x80008081;}else for(int i=10;i<25;i++)s[i]=RVN[i-10];f800(s);u32 mx[8];progpow(height/(firo?1:3),s[0]|(u64)s[1]<<32,size,l1,mx);
u32 t[25]={0};memcpy(t,s,32);memcpy(t+8,mx,32);if(firo){t[17]=1;t[24]=0x80008081;}else for(int i=16;i<25;i++)t[i]=RVN[i-16];f800(t);printf("mix ");hex(mx,32);printf("\ndigest ");hex(t,32);printf("\n");}
/* octopus */
#define P 1032193ULL
static u64 pw(u64 a,u64 n){u64 r=1;for(a%=P;n;n>>=1,a=a*a%P)if(n&1)r=r*a%P;return r;}
static u64 gcd(u64 a,u64 b){return b?gcd(b,a%b):a;}
static u64 remap(u64 h){u64 e=h%(P-2)+1;for(;;){u64 g=gcd(e,P-1);if(g==1)break;e/=g;}return pw(11,e);}
#define ROL(x,b) (((x)<<(b))|((x)>>(64-(b))))
static void sr(u64*v){v[0]+=v[1];v[2]+=v[3];v[1]=ROL(v[1],13);v[3]=ROL(v[3],16);v[1]^=v[0];v[3]^=v[2];v[0]=ROL(v[0],32);v[2]+=v[1];v[0]+=v[3];v[1]=ROL(v[1],17);v[3]=ROL(v[3],21);v[1]^=v[2];v[3]^=v[0];v[2]=ROL(v[2],32);}
static void octo(u8*h,u64 nonce,u64 size){u64 v[4];memcpy(v,h,32);u64 a=remap(v[0]),b=remap(v[1]),c,w=remap(v[3]);for(u64 x=v[2];;x++){c=remap(x);if(b*b%P!=4*a*c%P)break;}
static u64 d[1024];for(int i=0;i<32;i++){u64 s[4];memcpy(s,v,32);u64 m=nonce/32*32+i;s[3]^=m;sr(s);sr(s);s[0]^=m;s[2]^=0xff;sr(s);sr(s);sr(s);sr(s);for(int j=0;j<32;j++){sr(s);d[j*32+i]=((s[0]^s[1]^s[2]^s[3])&0xffffffff)%P;}}
u64 res=0;u32 rb[32];for(int i=0;i<32;i++){u64 t=nonce%32+32*i;u64 x=(a*pw(w,2*t)+b*pw(w,t)+c)%P,y=0;for(int j=1023;j>=0;j--)y=(y*x+d[j])%P;rb[i]=y;res=(res*0x01000193)^y;}
printf("params %lu %lu %lu %lu %lu\n",a,b,c,w,res);
u8 in[40],half[64];memcpy(in,h,32);memcpy(in+32,&res,8);keccak(half,64,in,40);u32 mix[64];for(int i=0;i<4;i++)memcpy(mix+16*i,half,64);u32 n=size/256;
for(int i=0;i<32;i++){u32 p=FNV(*(u32*)half^i^rb[i],mix[i])%n;for(int q=0;q<4;q++){u32 t[16];item(4*p+q,t);emit(4*p+q,t,16);for(int k=0;k<16;k++)mix[16*q+k]=FNV(mix[16*q+k],t[k]);}}
u8 f[96];memcpy(f,half,64);for(int i=0;i<8;i++){u32 r1=FNV(FNV(FNV(mix[4*i],mix[4*i+1]),mix[4*i+2]),mix[4*i+3]),r2=FNV(FNV(FNV(mix[32+4*i],mix[32+4*i+1]),mix[32+4*i+2]),mix[32+4*i+3]);u32 v2=FNV(r1,r2);memcpy(f+64+4*i,&v2,4);}
u8 dg[32];keccak(dg,32,f,96);printf("digest ");hex(dg,32);printf("\n");}
int main(int c,char**v){u8 seed[32]={0},h[32];u64 csize=strtoull(v[2],0,0),size=strtoull(v[3],0,0),height=strtoull(v[5],0,0),nonce=strtoull(v[6],0,0);int ep=atoi(v[7]);unhex(v[4],h);for(int i=0;i<ep;i++)keccak(seed,32,seed,32);
char k=v[1][0];parents=(k=='k'||k=='f')?512:256;gencache(csize,seed);
if(k=='e')ethash(h,nonce,size);if(k=='k')kaw(0,h,height,nonce,size);if(k=='f')kaw(1,h,height,nonce,size);if(k=='o')octo(h,nonce,size);}
