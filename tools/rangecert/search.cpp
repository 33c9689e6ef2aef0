#include <cstdio>
#include <cmath>
#include <vector>
#include <algorithm>
#include <cstdlib>
using namespace std; typedef long double D;
int n; D R,B; vector<vector<D>> G; // gamma in skewed coords: g.d = sum gamma_j a_j
long leaves=0,out=0,maxdepth=0,combos=0,nodes=0; int lim;
int kv; vector<vector<D>> V;
typedef vector<pair<int,vector<int>>> ST; D tol=1e-12L; bool exact=false;
vector<D> LL; bool leaf(const vector<D>&c,const vector<D>&r,const ST*L=0){ D rr=0; for(D x:r)rr+=x*x;
  D base=0; vector<D> lin(n,0); // fixed part
  struct Cand{D val,rem; vector<D> lin;};
  vector<vector<Cand>> C;
  for(size_t vi=0;vi<(L?L->size():V.size());vi++){ auto&v=V[L?(*L)[vi].first:vi];
    vector<D> d(n),Gd(n); D sum=0; for(int i=0;i<n;i++){d[i]=c[i]-v[i];sum+=d[i];}
    D s=0; for(int i=0;i<n;i++){Gd[i]=d[i]-sum/(n+1); s+=Gd[i]*d[i];}
    D a=R-s; D D1=0; for(int i=0;i<n;i++)D1+=r[i]*fabsl(Gd[i]); D dev=2*D1+rr;
    if(a+dev<=0) continue;
    vector<D> p; int best=0; for(size_t g=0;g<G.size();g++){D t=0;for(int i=0;i<n;i++)t+=G[g][i]*d[i];p.push_back(t); if(t>p[best])best=g;}
    if(a-dev<0){ D P=0; for(size_t g=0;g<G.size();g++){D t=p[g];for(int i=0;i<n;i++)t+=r[i]*fabsl(G[g][i]);P=max(P,t);} D w=a+dev; base+=P*w*w*w*w; continue;}
    vector<Cand> cs;
    for(size_t g=0;g<G.size();g++){
      if(L){auto&w=(*L)[vi].second; if(find(w.begin(),w.end(),(int)g)==w.end())continue;}
      D t=0;for(int i=0;i<n;i++)t+=r[i]*fabsl(G[g][i]-G[best][i]);
      if(!L && (int)g!=best && p[best]-p[g]>=t) continue;
      Cand k; D q=0; for(int i=0;i<n;i++)q+=r[i]*fabsl(G[g][i]);
      D a3=a*a*a,a4=a3*a; k.val=p[g]*a4; k.lin.resize(n); for(int i=0;i<n;i++)k.lin[i]=a4*G[g][i]-8*p[g]*a3*Gd[i];
      D P=max(p[g]+q,(D)0); k.rem=4*a3*q*dev+P*dev*dev*(6*a*a+4*a*dev+dev*dev)+4*a3*max(-p[g],(D)0)*rr;
      cs.push_back(k);
    }
    C.push_back(cs);
  }
  // enumerate
  vector<size_t> ix(C.size(),0);
  while(true){
    combos++;
    D t=base; vector<D> l(n,0); for(size_t k=0;k<C.size();k++){auto&q=C[k][ix[k]];t+=q.val+q.rem;for(int i=0;i<n;i++)l[i]+=q.lin[i];}
    for(int i=0;i<n;i++)t+=r[i]*fabsl(l[i]);LL=l;
    if(t>B) return false;
    size_t k=0; while(k<C.size()&&++ix[k]==C[k].size())ix[k++]=0; if(k==C.size())break;
  }
  return true;
}
bool inside(const vector<D>&c,const vector<D>&r){ {D s=0;for(int i=0;i<n;i++)s+=c[i]-r[i]; if(s>n*.5L)return false;} for(int i=0;i+1<n;i++)if(c[i]+r[i]<c[i+1]-r[i+1])return false; return true;}


#include <string>
ST refin(const ST&L,const vector<D>&c,const vector<D>&r){ ST o; D rr=0; for(D x:r)rr+=x*x;
 for(auto&x:L){ auto&v=V[x.first]; vector<D> d(n),Gd(n); D sum=0; for(int i=0;i<n;i++){d[i]=c[i]-v[i];sum+=d[i];} D s=0,D1=0; for(int i=0;i<n;i++){Gd[i]=d[i]-sum/(n+1); s+=Gd[i]*d[i];D1+=r[i]*fabsl(Gd[i]);}
  if(R-s+2*D1+rr<=0)continue; vector<D> p(G.size()); int b=x.second[0]; for(int g:x.second){D t=0;for(int i=0;i<n;i++)t+=G[g][i]*d[i];p[g]=t;if(t>p[b])b=g;}
  vector<int> k; for(int g:x.second){D t=0;for(int i=0;i<n;i++)t+=r[i]*fabsl(G[g][i]-G[b][i]); if(exact&&g==b)continue; if(g==b||p[b]-p[g]<t-tol)k.push_back(g);} if(exact)k.insert(k.begin(),b); o.push_back({x.first,k}); }
 return o;}
int cnt(const ST&L){int k=0;for(auto&x:L)k+=2+x.second.size();return k;}
int TH=3; long refs=0;
string rec(vector<D> c,vector<D> r,int dep,ST L){
  nodes++; if(!inside(c,r)){out++;return ".out";} if(dep>maxdepth)maxdepth=dep;
  if(exact){ if(leaf(c,r,&L)){leaves++;return ".leaf";} ST L2=refin(L,c,r); if(cnt(L2)<cnt(L)&&leaf(c,r,&L2)){leaves++;refs++;return "(.ref .leaf)";} } else
  if(leaf(c,r)){leaves++;ST L2=refin(L,c,r); if(cnt(L2)<cnt(L)){refs++;return "(.ref .leaf)";} return ".leaf";}
  if(dep>lim){printf("FAIL\n");exit(1);}
  int ax=0;for(int i=1;i<n;i++)if(r[i]>r[ax])ax=i;
 ST L2=refin(L,c,r); bool rf=cnt(L)-cnt(L2)>=TH; if(rf){L=L2;refs++;}
  auto a=c,b=c; r[ax]/=2; a[ax]-=r[ax]; b[ax]+=r[ax]; string A=rec(a,r,dep+1,L),Bs=rec(b,r,dep+1,L);
  auto w=[](string x){return x[0]=='('?x:x;};
  string o="(.cut "+to_string(ax)+" "+A+" "+Bs+")";
  if(rf) o="(.ref "+o+")";
  return o;
}
// the tree of the pieces: each starts with all grid points and gradients
int PL=50; long countLeaves(const string&t){long k=0;for(size_t i=0;(i=t.find(".leaf",i))!=string::npos;i++)k++;return k;}
string pieces(vector<D> c,vector<D> r,const ST&L0){
  if(!inside(c,r)) return "(.new .out)";
  string t=rec(c,r,0,refin(L0,c,r)); if(countLeaves(t)<=PL) return "(.new (.ref "+t+"))";
  int ax=0;for(int i=1;i<n;i++)if(r[i]>r[ax])ax=i;
  auto a=c,b=c; r[ax]/=2; a[ax]-=r[ax]; b[ax]+=r[ax]; return "(.cut "+to_string(ax)+" "+pieces(a,r,L0)+" "+pieces(b,r,L0)+")";
}
int main(int ac,char**av){ bool outer=av[1][0]=='o'; if(outer)av[1]++; bool super=av[1][0]=='s'&&av[1][1]=='u'; n=atoi(av[2]); D f=strtold(av[3],0); lim=120;
  vector<vector<D>> g; 
  if(!super){ if(n==2){R=.5L;B=0.0261208079755306243896484375L;D q=1+sqrtl(2);for(int s=0;s<4;s++){D a=s&1?-1:1,b=s&2?-1:1;g.push_back({a*q,b});g.push_back({a,b*q});}} }
  else { if(n==2){R=2.L/3;B=0.14084912836551666259765625L;D q=1+sqrtl(2);for(int s=0;s<4;s++){D a=s&1?-1:1,b=s&2?-1:1;g.push_back({a*q,b});g.push_back({a,b*q});}} }
  if(!super){ if(n==3){R=.6L;B=0.030586399137973785400390625L;for(int i=0;i<3;i++)for(int s=0;s<4;s++){vector<D> t(3,0);t[(i+1)%3]=s&1?-1:1;t[(i+2)%3]=s&2?-1:1;g.push_back(t);}} }
  else { if(n==3){R=.75L;B=16*0.0069091119803488254547119140625L;for(int i=0;i<3;i++)for(int s=0;s<4;s++){vector<D> t(3,0);t[(i+1)%3]=s&1?-1:1;t[(i+2)%3]=s&2?-1:1;g.push_back(t);}} }
  if(!super){ if(n==4){R=.6L;B=0.036730043590068817138671875L;for(int i=0;i<4;i++)for(int s=0;s<8;s++){vector<D> t;int k=0;for(int j=0;j<4;j++)if(j==i)t.push_back(0);else t.push_back((s>>k++)&1?-1:1);g.push_back(t);}} }
  else { if(n==4){R=.8L;B=16*0.011310013942420482635498046875L;for(int i=0;i<4;i++)for(int s=0;s<8;s++){vector<D> t;int k=0;for(int j=0;j<4;j++)if(j==i)t.push_back(0);else t.push_back((s>>k++)&1?-1:1);g.push_back(t);}} }
  // the gradients of the outer product warps, and the sums their bounding constants belong to
  if(outer){ g.clear(); if(n==2){D q=sqrtl(3);for(D a:{-1.L,1.L}){for(D b:{-1.L,1.L}){g.push_back({a*q,b});g.push_back({a,b*q});}g.push_back({2*a,0});g.push_back({0,2*a});} B=super?1/9.28993664146183L:1/49.918426513671875L;}
    else { D q=1/(sqrtl(5)+1); auto ax=[&](D a){for(int i=0;i<4;i++){vector<D> t(4,a*q);t[i]+=a;g.push_back(t);}}; ax(1); for(auto e:{"10","01","32","23","20","31","02","13","30","21","12","03"}){vector<D> t(4,0);t[e[0]-'0']=1;t[e[1]-'0']=-1;g.push_back(t);} ax(-1); B=super?16/115.21625311930542L:1/33.653125584827855L; } }
  B*=f;B-=5e-9L;
  // k: A_n* from orthonormal embed
  D k= n==2?-1/(sqrtl(3)+3): n==3?-.5L:-1/(sqrtl(5)+5);
  for(auto&t:g){D s=0;for(D x:t)s+=x;vector<D> u;for(D x:t)u.push_back(x+k*s);G.push_back(u);}
  if(!super){ for(int j=0;j<=n;j++){vector<D> v(n,0);for(int i=0;i<j;i++)v[i]=1;V.push_back(v);} }
  else { {int tot=1;for(int i=0;i<n;i++)tot*=4;for(int m=0;m<tot;m++){vector<D> v(n);int q=m;for(int i=0;i<n;i++){v[i]=q%4-1;q/=4;}V.push_back(v);}} }
  if(outer&&n==4){ for(auto&u:G)for(D&x:u)x=roundl(x); tol=0; exact=true; }
  ST L0; for(size_t i=0;i<V.size();i++){vector<int> k;for(size_t g=0;g<G.size();g++)k.push_back(g);L0.push_back({(int)i,k});} TH=2; if(exact&&ac>4){PL=atoi(av[4]); string o=pieces(vector<D>(n,.5L),vector<D>(n,.5L),L0); puts(o.c_str()); fprintf(stderr,"leaves %ld\n",countLeaves(o)); return 0;} string o=rec(vector<D>(n,.5L),vector<D>(n,.5L),0,L0);puts(o.c_str());
  fprintf(stderr,"n=%d f=%Lf leaves %ld out %ld nodes %ld depth %ld combos %ld\n",n,f,leaves,out,nodes,maxdepth,combos);
}
